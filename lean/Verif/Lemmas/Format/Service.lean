import Verif.Lemmas.Xml
import Verif.Lemmas.Json
import Verif.Spec.Format.Service
import Verif.Lemmas.Format.Data

set_option linter.unusedSectionVars false
set_option linter.unusedSimpArgs false
set_option linter.unusedVariables false

/-!
# Lemmas on the file formats: services
-/

namespace Cdx

theorem Service.toJsonAll_eq (v : SpecVersion) : ∀ l, Service.toJsonAll v l = l.map (Service.toJson v)
  | [] => by rw [Service.toJsonAll, List.map_nil]
  | x :: l => by rw [Service.toJsonAll, Service.toJsonAll_eq v l, List.map_cons]

theorem Service.toJsonOpt_eq (v : SpecVersion) : ∀ l,
    Service.toJsonOpt v l = l.map (Json.ofList (Service.toJson v))
  | none => by rw [Service.toJsonOpt, Option.map_none]
  | some l => by rw [Service.toJsonOpt, Service.toJsonAll_eq, Option.map_some, Json.ofList]

theorem Service.writeXmlAll_eq (v : SpecVersion) : ∀ l,
    Service.writeXmlAll v l = l.flatMap (Service.writeXml v)
  | [] => by rw [Service.writeXmlAll, List.flatMap_nil]
  | x :: l => by rw [Service.writeXmlAll, Service.writeXmlAll_eq v l, List.flatMap_cons]

theorem Service.writeXmlOpt_eq (v : SpecVersion) (tag : String) : ∀ l,
    Service.writeXmlOpt v tag l = writeOpt (writeList tag (Service.writeXml v)) l
  | none => by rw [Service.writeXmlOpt, writeOpt]
  | some l => by rw [Service.writeXmlOpt, Service.writeXmlAll_eq, writeOpt, writeList]

theorem Service.atAll_eq (v : SpecVersion) : ∀ l, Service.atAll v l = l.map (Service.at v)
  | [] => by rw [Service.atAll, List.map_nil]
  | x :: l => by rw [Service.atAll, Service.atAll_eq v l, List.map_cons]

theorem Service.atOpt_eq (v : SpecVersion) : ∀ l, Service.atOpt v l = l.map (List.map (Service.at v))
  | none => by rw [Service.atOpt, Option.map_none]
  | some l => by rw [Service.atOpt, Service.atAll_eq, Option.map_some]

/-- The services directly in a service. -/
def Service.children (x : Service) : List Service := x.services.getD []

theorem Service.mem_services {x y : Service} {l : List Service} (h : x.services = some l)
    (hy : y ∈ l) : y ∈ x.children := by
  rw [Service.children, h]
  exact hy

theorem Service.sizeOf_children {x y : Service} (hy : y ∈ x.children) : sizeOf y < sizeOf x := by
  cases hs : x.services with
  | none => simp [Service.children, hs] at hy
  | some l =>
    rw [Service.children, hs] at hy
    have := List.sizeOf_lt_of_mem (as := l) hy
    cases x
    subst hs
    simp
    omega

theorem Service.ind {P : Service → Prop} (h : ∀ x, (∀ y ∈ x.children, P y) → P x) (x : Service) :
    P x :=
  h x fun y hy => Service.ind h y
termination_by sizeOf x
decreasing_by exact Service.sizeOf_children hy

theorem Service.toJson_eq (v : SpecVersion) (x : Service) : Service.toJson v x =
  .mk ([("bom-ref", x.bomRef.map Json.str),
    ("provider", x.provider.map OrganizationalEntity.toJson),
    ("group", x.group.map Json.str),
    ("name", some (Json.str x.name)),
    ("version", x.version.map Json.str),
    ("description", x.description.map Json.str),
    ("endpoints", x.endpoints.map (Json.ofList Json.str)),
    ("authenticated", x.authenticated.map Json.bool),
    ("x-trust-boundary", x.xTrustBoundary.map Json.bool),
    ("data", x.data.map (ServiceDataChoice.toJson v)),
    ("licenses", x.licenses.map (Licenses.toJson v)),
    ("externalReferences", x.externalReferences.map (Json.ofList ExternalReference.toJson)),
    ("properties", x.properties.map (Json.ofList Property.toJson)),
    ("services", x.services.map (Json.ofList (Service.toJson v)))] ++
    since14 v [("signature", x.signature.map Signature.toJson)] [] ++
    since15 v [("trustZone", x.trustZone.map Json.str)] []) := by
  cases x
  rw [Service.toJson]
  simp only [Service.toJsonOpt_eq]

theorem Service.at_eq (v : SpecVersion) (x : Service) : Service.at v x =
  { x with data := x.data.map (ServiceDataChoice.at v),
           licenses := x.licenses.map (Licenses.at v),
           services := x.services.map (List.map (Service.at v)),
           signature := since14 v x.signature none,
           trustZone := since15 v x.trustZone none } := by
  cases x
  rw [Service.at]
  simp only [Service.atOpt_eq]

theorem Service.json_ne_null {v : SpecVersion} {x : Service} :
    Service.toJson v x ≠ .null := by
  rw [Service.toJson_eq]
  exact Json.mk_ne_null _

theorem Service.json_rtWith (v : SpecVersion) {x : Service}
    {sub : Json → Except String Service} (h : Service.JsonOkWith (fun y => sub (Service.toJson v y) = .ok (Service.at v y)) v x) :
    Service.ofJsonWith sub v (Service.toJson v x) = .ok (x.at v) := by
  rw [Service.toJson_eq, Service.at_eq]
  cases v with
  | v1_3 =>
    have hn : ["bom-ref", "provider", "group", "name", "version", "description", "endpoints", "authenticated", "x-trust-boundary", "data", "licenses", "externalReferences", "properties", "services"].Nodup := by decide
    refine bindOk (Json.fields_mk _) ?_
    refine bindOk (Json.opt_id hn (.head _) (fun y471 hy471 => Json.str_ne_null)
        (fun y471 hy471 => rfl)) ?_
    refine bindOk (Json.opt_id hn (.tail _ (.head _)) (fun y472 hy472 => OrganizationalEntity.json_ne_null)
        (fun y472 hy472 => OrganizationalEntity.json_rt)) ?_
    refine bindOk (Json.opt_id hn (.tail _ (.tail _ (.head _))) (fun y473 hy473 => Json.str_ne_null)
        (fun y473 hy473 => rfl)) ?_
    refine bindOk (Json.req_mk hn (.tail _ (.tail _ (.tail _ (.head _)))) (rfl)) ?_
    refine bindOk (Json.opt_id hn (.tail _ (.tail _ (.tail _ (.tail _ (.head _))))) (fun y474 hy474 => Json.str_ne_null)
        (fun y474 hy474 => rfl)) ?_
    refine bindOk (Json.opt_id hn (.tail _ (.tail _ (.tail _ (.tail _ (.tail _ (.head _)))))) (fun y475 hy475 => Json.str_ne_null)
        (fun y475 hy475 => rfl)) ?_
    refine bindOk (Json.opt_id hn (.tail _ (.tail _ (.tail _ (.tail _ (.tail _ (.tail _ (.head _))))))) (fun y476 hy476 => Json.ofList_ne_null)
        (fun y476 hy476 => Json.array_id (fun y477 hy477 => rfl))) ?_
    refine bindOk (Json.opt_id hn (.tail _ (.tail _ (.tail _ (.tail _ (.tail _ (.tail _ (.tail _ (.head _)))))))) (fun y478 hy478 => Json.bool_ne_null)
        (fun y478 hy478 => rfl)) ?_
    refine bindOk (Json.opt_id hn (.tail _ (.tail _ (.tail _ (.tail _ (.tail _ (.tail _ (.tail _ (.tail _ (.head _))))))))) (fun y479 hy479 => Json.bool_ne_null)
        (fun y479 hy479 => rfl)) ?_
    refine bindOk (Json.opt_mk hn (.tail _ (.tail _ (.tail _ (.tail _ (.tail _ (.tail _ (.tail _ (.tail _ (.tail _ (.head _)))))))))) (fun y480 hy480 => ServiceDataChoice.json_ne_null)
        (fun y480 hy480 => ServiceDataChoice.json_rt .v1_3 (h.data y480 hy480))) ?_
    refine bindOk (Json.opt_mk hn (.tail _ (.tail _ (.tail _ (.tail _ (.tail _ (.tail _ (.tail _ (.tail _ (.tail _ (.tail _ (.head _))))))))))) (fun y481 hy481 => Licenses.json_ne_null)
        (fun y481 hy481 => Licenses.json_rt .v1_3 (h.licenses y481 hy481))) ?_
    refine bindOk (Json.opt_id hn (.tail _ (.tail _ (.tail _ (.tail _ (.tail _ (.tail _ (.tail _ (.tail _ (.tail _ (.tail _ (.tail _ (.head _)))))))))))) (fun y482 hy482 => Json.ofList_ne_null)
        (fun y482 hy482 => Json.array_id (fun y483 hy483 => ExternalReference.json_rt ((h.externalReferences y482 hy482) y483 hy483)))) ?_
    refine bindOk (Json.opt_id hn (.tail _ (.tail _ (.tail _ (.tail _ (.tail _ (.tail _ (.tail _ (.tail _ (.tail _ (.tail _ (.tail _ (.tail _ (.head _))))))))))))) (fun y484 hy484 => Json.ofList_ne_null)
        (fun y484 hy484 => Json.array_id (fun y485 hy485 => Property.json_rt))) ?_
    refine bindOk (Json.opt_mk hn (.tail _ (.tail _ (.tail _ (.tail _ (.tail _ (.tail _ (.tail _ (.tail _ (.tail _ (.tail _ (.tail _ (.tail _ (.tail _ (.head _)))))))))))))) (fun y486 hy486 => Json.ofList_ne_null)
        (fun y486 hy486 => Json.array_ofList (fun y487 hy487 => ((h.services y486 hy486) y487 hy487)))) ?_
    refine bindOk rfl ?_
    refine bindOk rfl ?_
    rfl
  | v1_4 =>
    have hn : ["bom-ref", "provider", "group", "name", "version", "description", "endpoints", "authenticated", "x-trust-boundary", "data", "licenses", "externalReferences", "properties", "services", "signature"].Nodup := by decide
    refine bindOk (Json.fields_mk _) ?_
    refine bindOk (Json.opt_id hn (.head _) (fun y488 hy488 => Json.str_ne_null)
        (fun y488 hy488 => rfl)) ?_
    refine bindOk (Json.opt_id hn (.tail _ (.head _)) (fun y489 hy489 => OrganizationalEntity.json_ne_null)
        (fun y489 hy489 => OrganizationalEntity.json_rt)) ?_
    refine bindOk (Json.opt_id hn (.tail _ (.tail _ (.head _))) (fun y490 hy490 => Json.str_ne_null)
        (fun y490 hy490 => rfl)) ?_
    refine bindOk (Json.req_mk hn (.tail _ (.tail _ (.tail _ (.head _)))) (rfl)) ?_
    refine bindOk (Json.opt_id hn (.tail _ (.tail _ (.tail _ (.tail _ (.head _))))) (fun y491 hy491 => Json.str_ne_null)
        (fun y491 hy491 => rfl)) ?_
    refine bindOk (Json.opt_id hn (.tail _ (.tail _ (.tail _ (.tail _ (.tail _ (.head _)))))) (fun y492 hy492 => Json.str_ne_null)
        (fun y492 hy492 => rfl)) ?_
    refine bindOk (Json.opt_id hn (.tail _ (.tail _ (.tail _ (.tail _ (.tail _ (.tail _ (.head _))))))) (fun y493 hy493 => Json.ofList_ne_null)
        (fun y493 hy493 => Json.array_id (fun y494 hy494 => rfl))) ?_
    refine bindOk (Json.opt_id hn (.tail _ (.tail _ (.tail _ (.tail _ (.tail _ (.tail _ (.tail _ (.head _)))))))) (fun y495 hy495 => Json.bool_ne_null)
        (fun y495 hy495 => rfl)) ?_
    refine bindOk (Json.opt_id hn (.tail _ (.tail _ (.tail _ (.tail _ (.tail _ (.tail _ (.tail _ (.tail _ (.head _))))))))) (fun y496 hy496 => Json.bool_ne_null)
        (fun y496 hy496 => rfl)) ?_
    refine bindOk (Json.opt_mk hn (.tail _ (.tail _ (.tail _ (.tail _ (.tail _ (.tail _ (.tail _ (.tail _ (.tail _ (.head _)))))))))) (fun y497 hy497 => ServiceDataChoice.json_ne_null)
        (fun y497 hy497 => ServiceDataChoice.json_rt .v1_4 (h.data y497 hy497))) ?_
    refine bindOk (Json.opt_mk hn (.tail _ (.tail _ (.tail _ (.tail _ (.tail _ (.tail _ (.tail _ (.tail _ (.tail _ (.tail _ (.head _))))))))))) (fun y498 hy498 => Licenses.json_ne_null)
        (fun y498 hy498 => Licenses.json_rt .v1_4 (h.licenses y498 hy498))) ?_
    refine bindOk (Json.opt_id hn (.tail _ (.tail _ (.tail _ (.tail _ (.tail _ (.tail _ (.tail _ (.tail _ (.tail _ (.tail _ (.tail _ (.head _)))))))))))) (fun y499 hy499 => Json.ofList_ne_null)
        (fun y499 hy499 => Json.array_id (fun y500 hy500 => ExternalReference.json_rt ((h.externalReferences y499 hy499) y500 hy500)))) ?_
    refine bindOk (Json.opt_id hn (.tail _ (.tail _ (.tail _ (.tail _ (.tail _ (.tail _ (.tail _ (.tail _ (.tail _ (.tail _ (.tail _ (.tail _ (.head _))))))))))))) (fun y501 hy501 => Json.ofList_ne_null)
        (fun y501 hy501 => Json.array_id (fun y502 hy502 => Property.json_rt))) ?_
    refine bindOk (Json.opt_mk hn (.tail _ (.tail _ (.tail _ (.tail _ (.tail _ (.tail _ (.tail _ (.tail _ (.tail _ (.tail _ (.tail _ (.tail _ (.tail _ (.head _)))))))))))))) (fun y503 hy503 => Json.ofList_ne_null)
        (fun y503 hy503 => Json.array_ofList (fun y504 hy504 => ((h.services y503 hy503) y504 hy504)))) ?_
    refine bindOk (Json.opt_id hn (.tail _ (.tail _ (.tail _ (.tail _ (.tail _ (.tail _ (.tail _ (.tail _ (.tail _ (.tail _ (.tail _ (.tail _ (.tail _ (.tail _ (.head _))))))))))))))) (fun y505 hy505 => Signature.json_ne_null)
        (fun y505 hy505 => Signature.json_rt ((h.signature nofun) y505 hy505))) ?_
    refine bindOk rfl ?_
    rfl
  | v1_5 =>
    have hn : ["bom-ref", "provider", "group", "name", "version", "description", "endpoints", "authenticated", "x-trust-boundary", "data", "licenses", "externalReferences", "properties", "services", "signature", "trustZone"].Nodup := by decide
    refine bindOk (Json.fields_mk _) ?_
    refine bindOk (Json.opt_id hn (.head _) (fun y506 hy506 => Json.str_ne_null)
        (fun y506 hy506 => rfl)) ?_
    refine bindOk (Json.opt_id hn (.tail _ (.head _)) (fun y507 hy507 => OrganizationalEntity.json_ne_null)
        (fun y507 hy507 => OrganizationalEntity.json_rt)) ?_
    refine bindOk (Json.opt_id hn (.tail _ (.tail _ (.head _))) (fun y508 hy508 => Json.str_ne_null)
        (fun y508 hy508 => rfl)) ?_
    refine bindOk (Json.req_mk hn (.tail _ (.tail _ (.tail _ (.head _)))) (rfl)) ?_
    refine bindOk (Json.opt_id hn (.tail _ (.tail _ (.tail _ (.tail _ (.head _))))) (fun y509 hy509 => Json.str_ne_null)
        (fun y509 hy509 => rfl)) ?_
    refine bindOk (Json.opt_id hn (.tail _ (.tail _ (.tail _ (.tail _ (.tail _ (.head _)))))) (fun y510 hy510 => Json.str_ne_null)
        (fun y510 hy510 => rfl)) ?_
    refine bindOk (Json.opt_id hn (.tail _ (.tail _ (.tail _ (.tail _ (.tail _ (.tail _ (.head _))))))) (fun y511 hy511 => Json.ofList_ne_null)
        (fun y511 hy511 => Json.array_id (fun y512 hy512 => rfl))) ?_
    refine bindOk (Json.opt_id hn (.tail _ (.tail _ (.tail _ (.tail _ (.tail _ (.tail _ (.tail _ (.head _)))))))) (fun y513 hy513 => Json.bool_ne_null)
        (fun y513 hy513 => rfl)) ?_
    refine bindOk (Json.opt_id hn (.tail _ (.tail _ (.tail _ (.tail _ (.tail _ (.tail _ (.tail _ (.tail _ (.head _))))))))) (fun y514 hy514 => Json.bool_ne_null)
        (fun y514 hy514 => rfl)) ?_
    refine bindOk (Json.opt_mk hn (.tail _ (.tail _ (.tail _ (.tail _ (.tail _ (.tail _ (.tail _ (.tail _ (.tail _ (.head _)))))))))) (fun y515 hy515 => ServiceDataChoice.json_ne_null)
        (fun y515 hy515 => ServiceDataChoice.json_rt .v1_5 (h.data y515 hy515))) ?_
    refine bindOk (Json.opt_mk hn (.tail _ (.tail _ (.tail _ (.tail _ (.tail _ (.tail _ (.tail _ (.tail _ (.tail _ (.tail _ (.head _))))))))))) (fun y516 hy516 => Licenses.json_ne_null)
        (fun y516 hy516 => Licenses.json_rt .v1_5 (h.licenses y516 hy516))) ?_
    refine bindOk (Json.opt_id hn (.tail _ (.tail _ (.tail _ (.tail _ (.tail _ (.tail _ (.tail _ (.tail _ (.tail _ (.tail _ (.tail _ (.head _)))))))))))) (fun y517 hy517 => Json.ofList_ne_null)
        (fun y517 hy517 => Json.array_id (fun y518 hy518 => ExternalReference.json_rt ((h.externalReferences y517 hy517) y518 hy518)))) ?_
    refine bindOk (Json.opt_id hn (.tail _ (.tail _ (.tail _ (.tail _ (.tail _ (.tail _ (.tail _ (.tail _ (.tail _ (.tail _ (.tail _ (.tail _ (.head _))))))))))))) (fun y519 hy519 => Json.ofList_ne_null)
        (fun y519 hy519 => Json.array_id (fun y520 hy520 => Property.json_rt))) ?_
    refine bindOk (Json.opt_mk hn (.tail _ (.tail _ (.tail _ (.tail _ (.tail _ (.tail _ (.tail _ (.tail _ (.tail _ (.tail _ (.tail _ (.tail _ (.tail _ (.head _)))))))))))))) (fun y521 hy521 => Json.ofList_ne_null)
        (fun y521 hy521 => Json.array_ofList (fun y522 hy522 => ((h.services y521 hy521) y522 hy522)))) ?_
    refine bindOk (Json.opt_id hn (.tail _ (.tail _ (.tail _ (.tail _ (.tail _ (.tail _ (.tail _ (.tail _ (.tail _ (.tail _ (.tail _ (.tail _ (.tail _ (.tail _ (.head _))))))))))))))) (fun y523 hy523 => Signature.json_ne_null)
        (fun y523 hy523 => Signature.json_rt ((h.signature nofun) y523 hy523))) ?_
    refine bindOk (Json.opt_id hn (.tail _ (.tail _ (.tail _ (.tail _ (.tail _ (.tail _ (.tail _ (.tail _ (.tail _ (.tail _ (.tail _ (.tail _ (.tail _ (.tail _ (.tail _ (.head _)))))))))))))))) (fun y524 hy524 => Json.str_ne_null)
        (fun y524 hy524 => rfl)) ?_
    rfl

theorem Service.writeXml_eq (v : SpecVersion) (x : Service) : Service.writeXml v x =
  writeElem "service" (mkAttrs [("bom-ref", x.bomRef)]) (
    (writeOpt (OrganizationalEntity.writeXml "provider") x.provider) ++
    ((writeOpt (writeSimple "group") x.group) ++
    (((writeSimple "name") x.name) ++
    ((writeOpt (writeSimple "version") x.version) ++
    ((writeOpt (writeSimple "description") x.description) ++
    ((writeOpt (writeList "endpoints" (writeSimple "endpoint")) x.endpoints) ++
    ((writeOpt (fun b => writeSimple "authenticated" (boolStr b)) x.authenticated) ++
    ((writeOpt (fun b => writeSimple "x-trust-boundary" (boolStr b)) x.xTrustBoundary) ++
    ((writeOpt (ServiceDataChoice.writeXml v) x.data) ++
    ((writeOpt (Licenses.writeXml v) x.licenses) ++
    ((writeOpt (writeList "externalReferences" ExternalReference.writeXml) x.externalReferences) ++
    ((writeOpt (writeList "properties" Property.writeXml) x.properties) ++
    ((writeOpt (writeList "services" (Service.writeXml v)) x.services) ++
    ((since14 v (writeOpt Signature.writeXml x.signature) []) ++
    ((since15 v (writeOpt (writeSimple "trustZone") x.trustZone) [])))))))))))))))) := by
  cases x
  rw [Service.writeXml]
  simp only [Service.writeXmlOpt_eq]

theorem Service.xml_body_wfWith {loose : Bool} {v : SpecVersion} (hl : v = .v1_5 → loose = true) {x : Service}
    (hs : ∀ y ∈ x.children, WellFormed loose (Service.writeXml v y)) : WellFormed loose (
    (writeOpt (OrganizationalEntity.writeXml "provider") x.provider) ++
    ((writeOpt (writeSimple "group") x.group) ++
    (((writeSimple "name") x.name) ++
    ((writeOpt (writeSimple "version") x.version) ++
    ((writeOpt (writeSimple "description") x.description) ++
    ((writeOpt (writeList "endpoints" (writeSimple "endpoint")) x.endpoints) ++
    ((writeOpt (fun b => writeSimple "authenticated" (boolStr b)) x.authenticated) ++
    ((writeOpt (fun b => writeSimple "x-trust-boundary" (boolStr b)) x.xTrustBoundary) ++
    ((writeOpt (ServiceDataChoice.writeXml v) x.data) ++
    ((writeOpt (Licenses.writeXml v) x.licenses) ++
    ((writeOpt (writeList "externalReferences" ExternalReference.writeXml) x.externalReferences) ++
    ((writeOpt (writeList "properties" Property.writeXml) x.properties) ++
    ((writeOpt (writeList "services" (Service.writeXml v)) x.services) ++
    ((since14 v (writeOpt Signature.writeXml x.signature) []) ++
    ((since15 v (writeOpt (writeSimple "trustZone") x.trustZone) [])))))))))))))))) :=
  (.append (writeOpt_wf fun _ _ => OrganizationalEntity.xml_wf)
    (.append (writeOpt_wf fun _ _ => writeSimple_wf)
    (.append (writeSimple_wf)
    (.append (writeOpt_wf fun _ _ => writeSimple_wf)
    (.append (writeOpt_wf fun _ _ => writeSimple_wf)
    (.append (writeOpt_wf fun _ _ => (writeList_wf fun _ _ => writeSimple_wf))
    (.append (writeOpt_wf fun _ _ => writeSimple_wf)
    (.append (writeOpt_wf fun _ _ => writeSimple_wf)
    (.append (writeOpt_wf fun _ _ => (ServiceDataChoice.xml_wf hl))
    (.append (writeOpt_wf fun _ _ => Licenses.xml_wf)
    (.append (writeOpt_wf fun _ _ => (writeList_wf fun _ _ => ExternalReference.xml_wf))
    (.append (writeOpt_wf fun _ _ => (writeList_wf fun _ _ => Property.xml_wf))
    (.append (writeOpt_wf fun _ q => writeList_wf fun y hy => hs y (Service.mem_services q hy))
    (.append (since14_wf (writeOpt_wf fun _ _ => Signature.xml_wf))
    (since15_wf fun _ => (writeOpt_wf fun _ _ => writeSimple_wf))))))))))))))))

theorem Service.xml_oneWith {loose : Bool} {v : SpecVersion} (hl : v = .v1_5 → loose = true) {x : Service}
    (hs : ∀ y ∈ x.children, WellFormed loose (Service.writeXml v y)) :
    OneElement loose "service" (Service.writeXml v x) :=
  Service.writeXml_eq v x ▸ writeElem_one (goodAttrs (by decide : ["bom-ref"].Nodup)) (Service.xml_body_wfWith hl hs)

theorem Service.xml_wfWith {loose : Bool} {v : SpecVersion} (hl : v = .v1_5 → loose = true) {x : Service}
    (hs : ∀ y ∈ x.children, WellFormed loose (Service.writeXml v y)) :
    WellFormed loose (Service.writeXml v x) :=
  (Service.xml_oneWith hl hs).wf

theorem Service.arms_localWith (v : SpecVersion) {sub : XElem Service}
    (hs : ∀ {t}, LocalAt t sub) :
    ∀ p ∈ Service.armsWith sub v, LocalArm p.1 p.2 :=
  (armsAppend (armsAppend (armsCons (arm_local OrganizationalEntity.xml_local _)
    (armsCons (arm_local readSimple_local _)
    (armsCons (arm_local readSimple_local _)
    (armsCons (arm_local readSimple_local _)
    (armsCons (arm_local readSimple_local _)
    (armsCons (arm_local (readList_local readSimple_local) _)
    (armsCons (arm_local readBool_local _)
    (armsCons (arm_local readBool_local _)
    (armsCons (arm_local (ServiceDataChoice.xml_local v (tag := "data") (by decide)) _)
    (armsCons (arm_local (Licenses.xml_local v) _)
    (armsCons (arm_local (readList_local ExternalReference.xml_local) _)
    (armsCons (arm_local (readListLax_local Property.xml_local) _)
    (armsCons (arm_local (readListLax_local hs) _)
    armsNil)))))))))))))
    (armsSince14 (armsCons (arm_local Signature.xml_local _)
    armsNil)))
    (armsSince15 (armsCons (arm_local readSimple_local _)
    armsNil)))

theorem Service.xml_localWith (v : SpecVersion) {sub : XElem Service}
    (hs : ∀ {t}, LocalAt t sub) {tag : String} :
    LocalAt tag (Service.readXmlWith sub v) :=
  readStruct_local (by simp) (Service.arms_localWith v hs)

theorem Service.JsonOkWith.imp {p q : Service → Prop} {v : SpecVersion} {x : Service}
    (h : Service.JsonOkWith p v x) (hi : ∀ y, p y → q y) : Service.JsonOkWith q v x :=
  { h with
    services := fun l hl y hy => hi y (h.services l hl y hy) }

theorem Service.XmlOkWith.imp {p q : Service → Prop} {v : SpecVersion} {x : Service}
    (h : Service.XmlOkWith p v x) (hi : ∀ y, p y → q y) : Service.XmlOkWith q v x :=
  { h with
    services := fun l hl y hy => hi y (h.services l hl y hy) }

theorem Service.xml_wf {loose : Bool} {v : SpecVersion} (hl : v = .v1_5 → loose = true)
    {x : Service} : WellFormed loose (Service.writeXml v x) := by
  induction x using Service.ind with
  | h x ih => exact Service.xml_wfWith hl ih

theorem Service.xml_one {loose : Bool} {v : SpecVersion} (hl : v = .v1_5 → loose = true)
    {x : Service} : OneElement loose "service" (Service.writeXml v x) :=
  Service.xml_oneWith hl fun _ _ => Service.xml_wf hl

theorem Service.xml_readsWith (v : SpecVersion) {ns : Option String} {x : Service}
    {sub : XElem Service} (h : Service.XmlOkWith (fun y => Reads ns (Service.writeXml v y) "service" sub (Service.at v y)) v x) :
    Reads ns (Service.writeXml v x) "service" (Service.readXmlWith sub v) (x.at v) := by
  rw [Service.writeXml_eq, Service.at_eq]
  cases v with
  | v1_3 =>
    have hn : ["provider", "group", "name", "version", "description", "endpoints", "authenticated", "x-trust-boundary", "data", "licenses", "externalReferences", "properties", "services"].Nodup := by decide
    have ha : ["bom-ref"].Nodup := by decide
    refine reads_struct (p := (x.bomRef)) (Service.xml_body_wfWith (fun _ => rfl) (fun _ _ => Service.xml_wf fun _ => rfl)) ?_
        (Goes.append (s2 := ({ provider := x.provider } : Service.Vars)) (Goes.to (Goes.opt (fun o s => { s with provider := o }) (.head _) hn (fun _ => rfl) rfl
            (fun y541 hy541 => OrganizationalEntity.xml_reads (h.provider y541 hy541))) rfl)
          (Goes.append (s2 := ({ provider := x.provider, group := x.group } : Service.Vars)) (Goes.to (Goes.opt (fun o s => { s with group := o }) (.tail _ (.head _)) hn (fun _ => rfl) rfl
            (fun y542 hy542 => reads_simple (h.group y542 hy542))) rfl)
          (Goes.append (s2 := ({ provider := x.provider, group := x.group, name := some x.name } : Service.Vars)) (Goes.to (Goes.one (reads_simple h.name) (.tail _ (.tail _ (.head _))) hn) rfl)
          (Goes.append (s2 := ({ provider := x.provider, group := x.group, name := some x.name, version := x.version } : Service.Vars)) (Goes.to (Goes.opt (fun o s => { s with version := o }) (.tail _ (.tail _ (.tail _ (.head _)))) hn (fun _ => rfl) rfl
            (fun y543 hy543 => reads_simple (h.version y543 hy543))) rfl)
          (Goes.append (s2 := ({ provider := x.provider, group := x.group, name := some x.name, version := x.version, description := x.description } : Service.Vars)) (Goes.to (Goes.opt (fun o s => { s with description := o }) (.tail _ (.tail _ (.tail _ (.tail _ (.head _))))) hn (fun _ => rfl) rfl
            (fun y544 hy544 => reads_simple (h.description y544 hy544))) rfl)
          (Goes.append (s2 := ({ provider := x.provider, group := x.group, name := some x.name, version := x.version, description := x.description, endpoints := x.endpoints } : Service.Vars)) (Goes.to (Goes.opt (fun o s => { s with endpoints := o }) (.tail _ (.tail _ (.tail _ (.tail _ (.tail _ (.head _)))))) hn (fun _ => rfl) rfl
            (fun y545 hy545 => reads_list (fun y546 hy546 => reads_simple ((h.endpoints y545 hy545) y546 hy546)) (fun _ _ => writeSimple_wf))) rfl)
          (Goes.append (s2 := ({ provider := x.provider, group := x.group, name := some x.name, version := x.version, description := x.description, endpoints := x.endpoints, authenticated := x.authenticated } : Service.Vars)) (Goes.to (Goes.opt (fun o s => { s with authenticated := o }) (.tail _ (.tail _ (.tail _ (.tail _ (.tail _ (.tail _ (.head _))))))) hn (fun _ => rfl) rfl
            (fun y547 hy547 => reads_bool)) rfl)
          (Goes.append (s2 := ({ provider := x.provider, group := x.group, name := some x.name, version := x.version, description := x.description, endpoints := x.endpoints, authenticated := x.authenticated, xTrustBoundary := x.xTrustBoundary } : Service.Vars)) (Goes.to (Goes.opt (fun o s => { s with xTrustBoundary := o }) (.tail _ (.tail _ (.tail _ (.tail _ (.tail _ (.tail _ (.tail _ (.head _)))))))) hn (fun _ => rfl) rfl
            (fun y548 hy548 => reads_bool)) rfl)
          (Goes.append (s2 := ({ provider := x.provider, group := x.group, name := some x.name, version := x.version, description := x.description, endpoints := x.endpoints, authenticated := x.authenticated, xTrustBoundary := x.xTrustBoundary, data := x.data.map (ServiceDataChoice.at .v1_3) } : Service.Vars)) (Goes.to (Goes.opt_at (fun o s => { s with data := o }) (.tail _ (.tail _ (.tail _ (.tail _ (.tail _ (.tail _ (.tail _ (.tail _ (.head _))))))))) hn (fun _ => rfl) rfl
            (fun y549 hy549 => ServiceDataChoice.xml_reads .v1_3 (h.data y549 hy549))) rfl)
          (Goes.append (s2 := ({ provider := x.provider, group := x.group, name := some x.name, version := x.version, description := x.description, endpoints := x.endpoints, authenticated := x.authenticated, xTrustBoundary := x.xTrustBoundary, data := x.data.map (ServiceDataChoice.at .v1_3), licenses := x.licenses.map (Licenses.at .v1_3) } : Service.Vars)) (Goes.to (Goes.opt_at (fun o s => { s with licenses := o }) (.tail _ (.tail _ (.tail _ (.tail _ (.tail _ (.tail _ (.tail _ (.tail _ (.tail _ (.head _)))))))))) hn (fun _ => rfl) rfl
            (fun y550 hy550 => Licenses.xml_reads .v1_3 (h.licenses y550 hy550))) rfl)
          (Goes.append (s2 := ({ provider := x.provider, group := x.group, name := some x.name, version := x.version, description := x.description, endpoints := x.endpoints, authenticated := x.authenticated, xTrustBoundary := x.xTrustBoundary, data := x.data.map (ServiceDataChoice.at .v1_3), licenses := x.licenses.map (Licenses.at .v1_3), externalReferences := x.externalReferences } : Service.Vars)) (Goes.to (Goes.opt (fun o s => { s with externalReferences := o }) (.tail _ (.tail _ (.tail _ (.tail _ (.tail _ (.tail _ (.tail _ (.tail _ (.tail _ (.tail _ (.head _))))))))))) hn (fun _ => rfl) rfl
            (fun y551 hy551 => reads_list (fun y552 hy552 => ExternalReference.xml_reads ((h.externalReferences y551 hy551) y552 hy552)) (fun _ _ => ExternalReference.xml_wf))) rfl)
          (Goes.append (s2 := ({ provider := x.provider, group := x.group, name := some x.name, version := x.version, description := x.description, endpoints := x.endpoints, authenticated := x.authenticated, xTrustBoundary := x.xTrustBoundary, data := x.data.map (ServiceDataChoice.at .v1_3), licenses := x.licenses.map (Licenses.at .v1_3), externalReferences := x.externalReferences, properties := x.properties } : Service.Vars)) (Goes.to (Goes.opt (fun o s => { s with properties := o }) (.tail _ (.tail _ (.tail _ (.tail _ (.tail _ (.tail _ (.tail _ (.tail _ (.tail _ (.tail _ (.tail _ (.head _)))))))))))) hn (fun _ => rfl) rfl
            (fun y553 hy553 => reads_listLax (fun y554 hy554 => Property.xml_reads ((h.properties y553 hy553) y554 hy554)) (fun _ _ => Property.xml_wf))) rfl)
          (Goes.append (s2 := ({ provider := x.provider, group := x.group, name := some x.name, version := x.version, description := x.description, endpoints := x.endpoints, authenticated := x.authenticated, xTrustBoundary := x.xTrustBoundary, data := x.data.map (ServiceDataChoice.at .v1_3), licenses := x.licenses.map (Licenses.at .v1_3), externalReferences := x.externalReferences, properties := x.properties, services := x.services.map (List.map (Service.at .v1_3)) } : Service.Vars)) (Goes.to (Goes.opt_at (fun o s => { s with services := o }) (.tail _ (.tail _ (.tail _ (.tail _ (.tail _ (.tail _ (.tail _ (.tail _ (.tail _ (.tail _ (.tail _ (.tail _ (.head _))))))))))))) hn (fun _ => rfl) rfl
            (fun y555 hy555 => reads_listLax_at (fun y556 hy556 => ((h.services y555 hy555) y556 hy556)) (fun _ _ => (Service.xml_wf fun _ => rfl)))) rfl)
          (Goes.append (s2 := ({ provider := x.provider, group := x.group, name := some x.name, version := x.version, description := x.description, endpoints := x.endpoints, authenticated := x.authenticated, xTrustBoundary := x.xTrustBoundary, data := x.data.map (ServiceDataChoice.at .v1_3), licenses := x.licenses.map (Licenses.at .v1_3), externalReferences := x.externalReferences, properties := x.properties, services := x.services.map (List.map (Service.at .v1_3)) } : Service.Vars)) (Goes.to (Goes.nil) rfl)
          (Goes.nil)
          .nil)
          (writeOpt_wf fun _ _ => (writeList_wf fun _ _ => (Service.xml_wf fun _ => rfl))))
          (writeOpt_wf fun _ _ => (writeList_wf fun _ _ => Property.xml_wf)))
          (writeOpt_wf fun _ _ => (writeList_wf fun _ _ => ExternalReference.xml_wf)))
          (writeOpt_wf fun _ _ => Licenses.xml_wf))
          (writeOpt_wf fun _ _ => (ServiceDataChoice.xml_wf fun _ => rfl)))
          (writeOpt_wf fun _ _ => writeSimple_wf))
          (writeOpt_wf fun _ _ => writeSimple_wf))
          (writeOpt_wf fun _ _ => (writeList_wf fun _ _ => writeSimple_wf)))
          (writeOpt_wf fun _ _ => writeSimple_wf))
          (writeOpt_wf fun _ _ => writeSimple_wf))
          (writeSimple_wf))
          (writeOpt_wf fun _ _ => writeSimple_wf))
          (writeOpt_wf fun _ _ => OrganizationalEntity.xml_wf)) ?_
    · exact congrArg Except.ok (optAttr_mk ha (.head _))
    · rfl
  | v1_4 =>
    have hn : ["provider", "group", "name", "version", "description", "endpoints", "authenticated", "x-trust-boundary", "data", "licenses", "externalReferences", "properties", "services", "signature"].Nodup := by decide
    have ha : ["bom-ref"].Nodup := by decide
    refine reads_struct (p := (x.bomRef)) (Service.xml_body_wfWith (fun _ => rfl) (fun _ _ => Service.xml_wf fun _ => rfl)) ?_
        (Goes.append (s2 := ({ provider := x.provider } : Service.Vars)) (Goes.to (Goes.opt (fun o s => { s with provider := o }) (.head _) hn (fun _ => rfl) rfl
            (fun y557 hy557 => OrganizationalEntity.xml_reads (h.provider y557 hy557))) rfl)
          (Goes.append (s2 := ({ provider := x.provider, group := x.group } : Service.Vars)) (Goes.to (Goes.opt (fun o s => { s with group := o }) (.tail _ (.head _)) hn (fun _ => rfl) rfl
            (fun y558 hy558 => reads_simple (h.group y558 hy558))) rfl)
          (Goes.append (s2 := ({ provider := x.provider, group := x.group, name := some x.name } : Service.Vars)) (Goes.to (Goes.one (reads_simple h.name) (.tail _ (.tail _ (.head _))) hn) rfl)
          (Goes.append (s2 := ({ provider := x.provider, group := x.group, name := some x.name, version := x.version } : Service.Vars)) (Goes.to (Goes.opt (fun o s => { s with version := o }) (.tail _ (.tail _ (.tail _ (.head _)))) hn (fun _ => rfl) rfl
            (fun y559 hy559 => reads_simple (h.version y559 hy559))) rfl)
          (Goes.append (s2 := ({ provider := x.provider, group := x.group, name := some x.name, version := x.version, description := x.description } : Service.Vars)) (Goes.to (Goes.opt (fun o s => { s with description := o }) (.tail _ (.tail _ (.tail _ (.tail _ (.head _))))) hn (fun _ => rfl) rfl
            (fun y560 hy560 => reads_simple (h.description y560 hy560))) rfl)
          (Goes.append (s2 := ({ provider := x.provider, group := x.group, name := some x.name, version := x.version, description := x.description, endpoints := x.endpoints } : Service.Vars)) (Goes.to (Goes.opt (fun o s => { s with endpoints := o }) (.tail _ (.tail _ (.tail _ (.tail _ (.tail _ (.head _)))))) hn (fun _ => rfl) rfl
            (fun y561 hy561 => reads_list (fun y562 hy562 => reads_simple ((h.endpoints y561 hy561) y562 hy562)) (fun _ _ => writeSimple_wf))) rfl)
          (Goes.append (s2 := ({ provider := x.provider, group := x.group, name := some x.name, version := x.version, description := x.description, endpoints := x.endpoints, authenticated := x.authenticated } : Service.Vars)) (Goes.to (Goes.opt (fun o s => { s with authenticated := o }) (.tail _ (.tail _ (.tail _ (.tail _ (.tail _ (.tail _ (.head _))))))) hn (fun _ => rfl) rfl
            (fun y563 hy563 => reads_bool)) rfl)
          (Goes.append (s2 := ({ provider := x.provider, group := x.group, name := some x.name, version := x.version, description := x.description, endpoints := x.endpoints, authenticated := x.authenticated, xTrustBoundary := x.xTrustBoundary } : Service.Vars)) (Goes.to (Goes.opt (fun o s => { s with xTrustBoundary := o }) (.tail _ (.tail _ (.tail _ (.tail _ (.tail _ (.tail _ (.tail _ (.head _)))))))) hn (fun _ => rfl) rfl
            (fun y564 hy564 => reads_bool)) rfl)
          (Goes.append (s2 := ({ provider := x.provider, group := x.group, name := some x.name, version := x.version, description := x.description, endpoints := x.endpoints, authenticated := x.authenticated, xTrustBoundary := x.xTrustBoundary, data := x.data.map (ServiceDataChoice.at .v1_4) } : Service.Vars)) (Goes.to (Goes.opt_at (fun o s => { s with data := o }) (.tail _ (.tail _ (.tail _ (.tail _ (.tail _ (.tail _ (.tail _ (.tail _ (.head _))))))))) hn (fun _ => rfl) rfl
            (fun y565 hy565 => ServiceDataChoice.xml_reads .v1_4 (h.data y565 hy565))) rfl)
          (Goes.append (s2 := ({ provider := x.provider, group := x.group, name := some x.name, version := x.version, description := x.description, endpoints := x.endpoints, authenticated := x.authenticated, xTrustBoundary := x.xTrustBoundary, data := x.data.map (ServiceDataChoice.at .v1_4), licenses := x.licenses.map (Licenses.at .v1_4) } : Service.Vars)) (Goes.to (Goes.opt_at (fun o s => { s with licenses := o }) (.tail _ (.tail _ (.tail _ (.tail _ (.tail _ (.tail _ (.tail _ (.tail _ (.tail _ (.head _)))))))))) hn (fun _ => rfl) rfl
            (fun y566 hy566 => Licenses.xml_reads .v1_4 (h.licenses y566 hy566))) rfl)
          (Goes.append (s2 := ({ provider := x.provider, group := x.group, name := some x.name, version := x.version, description := x.description, endpoints := x.endpoints, authenticated := x.authenticated, xTrustBoundary := x.xTrustBoundary, data := x.data.map (ServiceDataChoice.at .v1_4), licenses := x.licenses.map (Licenses.at .v1_4), externalReferences := x.externalReferences } : Service.Vars)) (Goes.to (Goes.opt (fun o s => { s with externalReferences := o }) (.tail _ (.tail _ (.tail _ (.tail _ (.tail _ (.tail _ (.tail _ (.tail _ (.tail _ (.tail _ (.head _))))))))))) hn (fun _ => rfl) rfl
            (fun y567 hy567 => reads_list (fun y568 hy568 => ExternalReference.xml_reads ((h.externalReferences y567 hy567) y568 hy568)) (fun _ _ => ExternalReference.xml_wf))) rfl)
          (Goes.append (s2 := ({ provider := x.provider, group := x.group, name := some x.name, version := x.version, description := x.description, endpoints := x.endpoints, authenticated := x.authenticated, xTrustBoundary := x.xTrustBoundary, data := x.data.map (ServiceDataChoice.at .v1_4), licenses := x.licenses.map (Licenses.at .v1_4), externalReferences := x.externalReferences, properties := x.properties } : Service.Vars)) (Goes.to (Goes.opt (fun o s => { s with properties := o }) (.tail _ (.tail _ (.tail _ (.tail _ (.tail _ (.tail _ (.tail _ (.tail _ (.tail _ (.tail _ (.tail _ (.head _)))))))))))) hn (fun _ => rfl) rfl
            (fun y569 hy569 => reads_listLax (fun y570 hy570 => Property.xml_reads ((h.properties y569 hy569) y570 hy570)) (fun _ _ => Property.xml_wf))) rfl)
          (Goes.append (s2 := ({ provider := x.provider, group := x.group, name := some x.name, version := x.version, description := x.description, endpoints := x.endpoints, authenticated := x.authenticated, xTrustBoundary := x.xTrustBoundary, data := x.data.map (ServiceDataChoice.at .v1_4), licenses := x.licenses.map (Licenses.at .v1_4), externalReferences := x.externalReferences, properties := x.properties, services := x.services.map (List.map (Service.at .v1_4)) } : Service.Vars)) (Goes.to (Goes.opt_at (fun o s => { s with services := o }) (.tail _ (.tail _ (.tail _ (.tail _ (.tail _ (.tail _ (.tail _ (.tail _ (.tail _ (.tail _ (.tail _ (.tail _ (.head _))))))))))))) hn (fun _ => rfl) rfl
            (fun y571 hy571 => reads_listLax_at (fun y572 hy572 => ((h.services y571 hy571) y572 hy572)) (fun _ _ => (Service.xml_wf fun _ => rfl)))) rfl)
          (Goes.append (s2 := ({ provider := x.provider, group := x.group, name := some x.name, version := x.version, description := x.description, endpoints := x.endpoints, authenticated := x.authenticated, xTrustBoundary := x.xTrustBoundary, data := x.data.map (ServiceDataChoice.at .v1_4), licenses := x.licenses.map (Licenses.at .v1_4), externalReferences := x.externalReferences, properties := x.properties, services := x.services.map (List.map (Service.at .v1_4)), signature := x.signature } : Service.Vars)) (Goes.to (Goes.opt (fun o s => { s with signature := o }) (.tail _ (.tail _ (.tail _ (.tail _ (.tail _ (.tail _ (.tail _ (.tail _ (.tail _ (.tail _ (.tail _ (.tail _ (.tail _ (.head _)))))))))))))) hn (fun _ => rfl) rfl
            (fun y573 hy573 => Signature.xml_reads ((h.signature nofun) y573 hy573))) rfl)
          (Goes.nil)
          (writeOpt_wf fun _ _ => Signature.xml_wf))
          (writeOpt_wf fun _ _ => (writeList_wf fun _ _ => (Service.xml_wf fun _ => rfl))))
          (writeOpt_wf fun _ _ => (writeList_wf fun _ _ => Property.xml_wf)))
          (writeOpt_wf fun _ _ => (writeList_wf fun _ _ => ExternalReference.xml_wf)))
          (writeOpt_wf fun _ _ => Licenses.xml_wf))
          (writeOpt_wf fun _ _ => (ServiceDataChoice.xml_wf fun _ => rfl)))
          (writeOpt_wf fun _ _ => writeSimple_wf))
          (writeOpt_wf fun _ _ => writeSimple_wf))
          (writeOpt_wf fun _ _ => (writeList_wf fun _ _ => writeSimple_wf)))
          (writeOpt_wf fun _ _ => writeSimple_wf))
          (writeOpt_wf fun _ _ => writeSimple_wf))
          (writeSimple_wf))
          (writeOpt_wf fun _ _ => writeSimple_wf))
          (writeOpt_wf fun _ _ => OrganizationalEntity.xml_wf)) ?_
    · exact congrArg Except.ok (optAttr_mk ha (.head _))
    · rfl
  | v1_5 =>
    have hn : ["provider", "group", "name", "version", "description", "endpoints", "authenticated", "x-trust-boundary", "data", "licenses", "externalReferences", "properties", "services", "signature", "trustZone"].Nodup := by decide
    have ha : ["bom-ref"].Nodup := by decide
    refine reads_struct (p := (x.bomRef)) (Service.xml_body_wfWith (fun _ => rfl) (fun _ _ => Service.xml_wf fun _ => rfl)) ?_
        (Goes.append (s2 := ({ provider := x.provider } : Service.Vars)) (Goes.to (Goes.opt (fun o s => { s with provider := o }) (.head _) hn (fun _ => rfl) rfl
            (fun y574 hy574 => OrganizationalEntity.xml_reads (h.provider y574 hy574))) rfl)
          (Goes.append (s2 := ({ provider := x.provider, group := x.group } : Service.Vars)) (Goes.to (Goes.opt (fun o s => { s with group := o }) (.tail _ (.head _)) hn (fun _ => rfl) rfl
            (fun y575 hy575 => reads_simple (h.group y575 hy575))) rfl)
          (Goes.append (s2 := ({ provider := x.provider, group := x.group, name := some x.name } : Service.Vars)) (Goes.to (Goes.one (reads_simple h.name) (.tail _ (.tail _ (.head _))) hn) rfl)
          (Goes.append (s2 := ({ provider := x.provider, group := x.group, name := some x.name, version := x.version } : Service.Vars)) (Goes.to (Goes.opt (fun o s => { s with version := o }) (.tail _ (.tail _ (.tail _ (.head _)))) hn (fun _ => rfl) rfl
            (fun y576 hy576 => reads_simple (h.version y576 hy576))) rfl)
          (Goes.append (s2 := ({ provider := x.provider, group := x.group, name := some x.name, version := x.version, description := x.description } : Service.Vars)) (Goes.to (Goes.opt (fun o s => { s with description := o }) (.tail _ (.tail _ (.tail _ (.tail _ (.head _))))) hn (fun _ => rfl) rfl
            (fun y577 hy577 => reads_simple (h.description y577 hy577))) rfl)
          (Goes.append (s2 := ({ provider := x.provider, group := x.group, name := some x.name, version := x.version, description := x.description, endpoints := x.endpoints } : Service.Vars)) (Goes.to (Goes.opt (fun o s => { s with endpoints := o }) (.tail _ (.tail _ (.tail _ (.tail _ (.tail _ (.head _)))))) hn (fun _ => rfl) rfl
            (fun y578 hy578 => reads_list (fun y579 hy579 => reads_simple ((h.endpoints y578 hy578) y579 hy579)) (fun _ _ => writeSimple_wf))) rfl)
          (Goes.append (s2 := ({ provider := x.provider, group := x.group, name := some x.name, version := x.version, description := x.description, endpoints := x.endpoints, authenticated := x.authenticated } : Service.Vars)) (Goes.to (Goes.opt (fun o s => { s with authenticated := o }) (.tail _ (.tail _ (.tail _ (.tail _ (.tail _ (.tail _ (.head _))))))) hn (fun _ => rfl) rfl
            (fun y580 hy580 => reads_bool)) rfl)
          (Goes.append (s2 := ({ provider := x.provider, group := x.group, name := some x.name, version := x.version, description := x.description, endpoints := x.endpoints, authenticated := x.authenticated, xTrustBoundary := x.xTrustBoundary } : Service.Vars)) (Goes.to (Goes.opt (fun o s => { s with xTrustBoundary := o }) (.tail _ (.tail _ (.tail _ (.tail _ (.tail _ (.tail _ (.tail _ (.head _)))))))) hn (fun _ => rfl) rfl
            (fun y581 hy581 => reads_bool)) rfl)
          (Goes.append (s2 := ({ provider := x.provider, group := x.group, name := some x.name, version := x.version, description := x.description, endpoints := x.endpoints, authenticated := x.authenticated, xTrustBoundary := x.xTrustBoundary, data := x.data.map (ServiceDataChoice.at .v1_5) } : Service.Vars)) (Goes.to (Goes.opt_at (fun o s => { s with data := o }) (.tail _ (.tail _ (.tail _ (.tail _ (.tail _ (.tail _ (.tail _ (.tail _ (.head _))))))))) hn (fun _ => rfl) rfl
            (fun y582 hy582 => ServiceDataChoice.xml_reads .v1_5 (h.data y582 hy582))) rfl)
          (Goes.append (s2 := ({ provider := x.provider, group := x.group, name := some x.name, version := x.version, description := x.description, endpoints := x.endpoints, authenticated := x.authenticated, xTrustBoundary := x.xTrustBoundary, data := x.data.map (ServiceDataChoice.at .v1_5), licenses := x.licenses.map (Licenses.at .v1_5) } : Service.Vars)) (Goes.to (Goes.opt_at (fun o s => { s with licenses := o }) (.tail _ (.tail _ (.tail _ (.tail _ (.tail _ (.tail _ (.tail _ (.tail _ (.tail _ (.head _)))))))))) hn (fun _ => rfl) rfl
            (fun y583 hy583 => Licenses.xml_reads .v1_5 (h.licenses y583 hy583))) rfl)
          (Goes.append (s2 := ({ provider := x.provider, group := x.group, name := some x.name, version := x.version, description := x.description, endpoints := x.endpoints, authenticated := x.authenticated, xTrustBoundary := x.xTrustBoundary, data := x.data.map (ServiceDataChoice.at .v1_5), licenses := x.licenses.map (Licenses.at .v1_5), externalReferences := x.externalReferences } : Service.Vars)) (Goes.to (Goes.opt (fun o s => { s with externalReferences := o }) (.tail _ (.tail _ (.tail _ (.tail _ (.tail _ (.tail _ (.tail _ (.tail _ (.tail _ (.tail _ (.head _))))))))))) hn (fun _ => rfl) rfl
            (fun y584 hy584 => reads_list (fun y585 hy585 => ExternalReference.xml_reads ((h.externalReferences y584 hy584) y585 hy585)) (fun _ _ => ExternalReference.xml_wf))) rfl)
          (Goes.append (s2 := ({ provider := x.provider, group := x.group, name := some x.name, version := x.version, description := x.description, endpoints := x.endpoints, authenticated := x.authenticated, xTrustBoundary := x.xTrustBoundary, data := x.data.map (ServiceDataChoice.at .v1_5), licenses := x.licenses.map (Licenses.at .v1_5), externalReferences := x.externalReferences, properties := x.properties } : Service.Vars)) (Goes.to (Goes.opt (fun o s => { s with properties := o }) (.tail _ (.tail _ (.tail _ (.tail _ (.tail _ (.tail _ (.tail _ (.tail _ (.tail _ (.tail _ (.tail _ (.head _)))))))))))) hn (fun _ => rfl) rfl
            (fun y586 hy586 => reads_listLax (fun y587 hy587 => Property.xml_reads ((h.properties y586 hy586) y587 hy587)) (fun _ _ => Property.xml_wf))) rfl)
          (Goes.append (s2 := ({ provider := x.provider, group := x.group, name := some x.name, version := x.version, description := x.description, endpoints := x.endpoints, authenticated := x.authenticated, xTrustBoundary := x.xTrustBoundary, data := x.data.map (ServiceDataChoice.at .v1_5), licenses := x.licenses.map (Licenses.at .v1_5), externalReferences := x.externalReferences, properties := x.properties, services := x.services.map (List.map (Service.at .v1_5)) } : Service.Vars)) (Goes.to (Goes.opt_at (fun o s => { s with services := o }) (.tail _ (.tail _ (.tail _ (.tail _ (.tail _ (.tail _ (.tail _ (.tail _ (.tail _ (.tail _ (.tail _ (.tail _ (.head _))))))))))))) hn (fun _ => rfl) rfl
            (fun y588 hy588 => reads_listLax_at (fun y589 hy589 => ((h.services y588 hy588) y589 hy589)) (fun _ _ => (Service.xml_wf fun _ => rfl)))) rfl)
          (Goes.append (s2 := ({ provider := x.provider, group := x.group, name := some x.name, version := x.version, description := x.description, endpoints := x.endpoints, authenticated := x.authenticated, xTrustBoundary := x.xTrustBoundary, data := x.data.map (ServiceDataChoice.at .v1_5), licenses := x.licenses.map (Licenses.at .v1_5), externalReferences := x.externalReferences, properties := x.properties, services := x.services.map (List.map (Service.at .v1_5)), signature := x.signature } : Service.Vars)) (Goes.to (Goes.opt (fun o s => { s with signature := o }) (.tail _ (.tail _ (.tail _ (.tail _ (.tail _ (.tail _ (.tail _ (.tail _ (.tail _ (.tail _ (.tail _ (.tail _ (.tail _ (.head _)))))))))))))) hn (fun _ => rfl) rfl
            (fun y590 hy590 => Signature.xml_reads ((h.signature nofun) y590 hy590))) rfl)
          (Goes.opt (fun o s => { s with trustZone := o }) (.tail _ (.tail _ (.tail _ (.tail _ (.tail _ (.tail _ (.tail _ (.tail _ (.tail _ (.tail _ (.tail _ (.tail _ (.tail _ (.tail _ (.head _))))))))))))))) hn (fun _ => rfl) rfl
            (fun y591 hy591 => reads_simple ((h.trustZone rfl) y591 hy591)))
          (writeOpt_wf fun _ _ => Signature.xml_wf))
          (writeOpt_wf fun _ _ => (writeList_wf fun _ _ => (Service.xml_wf fun _ => rfl))))
          (writeOpt_wf fun _ _ => (writeList_wf fun _ _ => Property.xml_wf)))
          (writeOpt_wf fun _ _ => (writeList_wf fun _ _ => ExternalReference.xml_wf)))
          (writeOpt_wf fun _ _ => Licenses.xml_wf))
          (writeOpt_wf fun _ _ => (ServiceDataChoice.xml_wf fun _ => rfl)))
          (writeOpt_wf fun _ _ => writeSimple_wf))
          (writeOpt_wf fun _ _ => writeSimple_wf))
          (writeOpt_wf fun _ _ => (writeList_wf fun _ _ => writeSimple_wf)))
          (writeOpt_wf fun _ _ => writeSimple_wf))
          (writeOpt_wf fun _ _ => writeSimple_wf))
          (writeSimple_wf))
          (writeOpt_wf fun _ _ => writeSimple_wf))
          (writeOpt_wf fun _ _ => OrganizationalEntity.xml_wf)) ?_
    · exact congrArg Except.ok (optAttr_mk ha (.head _))
    · rfl

variable [ReadLimit]

theorem Service.json_rtN (v : SpecVersion) : ∀ {n : Nat} {x : Service}, Service.JsonOkN v n x →
    Service.ofJsonN v n (Service.toJson v x) = .ok (x.at v)
  | 0, _, h => h.elim
  | _ + 1, _, h => Service.json_rtWith v (Service.JsonOkWith.imp h fun _ h => Service.json_rtN v h)

theorem Service.json_rt (v : SpecVersion) {x : Service} (h : Service.JsonOk v x) :
    Service.ofJson v (Service.toJson v x) = .ok (x.at v) := Service.json_rtN v h

theorem Service.xml_localN (v : SpecVersion) : ∀ {n : Nat} {tag : String},
    LocalAt tag (Service.readXmlN v n)
  | 0, _ => fun _ _ _ _ _ _ => ⟨.error .depth, fun _ => rfl⟩
  | _ + 1, _ => Service.xml_localWith v (Service.xml_localN v)

theorem Service.xml_local (v : SpecVersion) {tag : String} : LocalAt tag (Service.readXml v) :=
  Service.xml_localN v

theorem Service.xml_readsN (v : SpecVersion) {ns : Option String} : ∀ {n : Nat} {x : Service},
    Service.XmlOkN v n x → Reads ns (Service.writeXml v x) "service" (Service.readXmlN v n) (x.at v)
  | 0, _, h => h.elim
  | _ + 1, _, h => Service.xml_readsWith v (Service.XmlOkWith.imp h fun _ h => Service.xml_readsN v h)

theorem Service.xml_reads (v : SpecVersion) {ns : Option String} {x : Service} (h : Service.XmlOk v x) :
    Reads ns (Service.writeXml v x) "service" (Service.readXml v) (x.at v) := Service.xml_readsN v h

end Cdx
