import Verif.Lemmas.Only.Parts

set_option linter.unusedSectionVars false
set_option linter.unusedSimpArgs false
set_option linter.unusedVariables false

/-!
# What is read back from JSON satisfies the conditions: services and evidence
-/

namespace Cdx

variable [F32Format] [ReadLimit]

theorem Service.json_onlyWith (v : SpecVersion) {x : Service}
    {sub : Json → Except String Service}
    (h : Service.ofJsonWith sub v (Service.toJson v x) = .ok (x.at v)) :
    Service.JsonOkWith (fun y => sub (Service.toJson v y) = .ok (Service.at v y)) v x := by
  rw [Service.toJson_eq, Service.at_eq] at h
  cases v with
  | v1_3 =>
    have hn : ["bom-ref", "provider", "group", "name", "version", "description", "endpoints", "authenticated", "x-trust-boundary", "data", "licenses", "externalReferences", "properties", "services"].Nodup := by decide
    have h := bindWith (Json.fields_mk _) h
    obtain ⟨_, _, h⟩ := bindInv h
    obtain ⟨_, _, h⟩ := bindInv h
    obtain ⟨_, _, h⟩ := bindInv h
    obtain ⟨_, _, h⟩ := bindInv h
    obtain ⟨_, _, h⟩ := bindInv h
    obtain ⟨_, _, h⟩ := bindInv h
    obtain ⟨_, _, h⟩ := bindInv h
    obtain ⟨_, _, h⟩ := bindInv h
    obtain ⟨_, _, h⟩ := bindInv h
    obtain ⟨_, e1, h⟩ := bindInv h
    obtain ⟨_, e2, h⟩ := bindInv h
    obtain ⟨_, e3, h⟩ := bindInv h
    obtain ⟨_, _, h⟩ := bindInv h
    obtain ⟨_, e4, h⟩ := bindInv h
    obtain ⟨_, _, h⟩ := bindInv h
    obtain ⟨_, _, h⟩ := bindInv h
    have h := Except.ok.inj h
    exact ⟨fun y480 hy480 => ServiceDataChoice.json_only .v1_3 ((Json.opt_inv e1 hn (.tail _ (.tail _ (.tail _ (.tail _ (.tail _ (.tail _ (.tail _ (.tail _ (.tail _ (.head _)))))))))) (congrArg Service.data h)) y480 hy480),
      fun y481 hy481 => Licenses.json_only .v1_3 ((Json.opt_inv e2 hn (.tail _ (.tail _ (.tail _ (.tail _ (.tail _ (.tail _ (.tail _ (.tail _ (.tail _ (.tail _ (.head _))))))))))) (congrArg Service.licenses h)) y481 hy481),
      fun y482 hy482 => fun y483 hy483 => ExternalReference.json_only ((Json.array_inv_id ((Json.opt_inv_id e3 hn (.tail _ (.tail _ (.tail _ (.tail _ (.tail _ (.tail _ (.tail _ (.tail _ (.tail _ (.tail _ (.tail _ (.head _)))))))))))) (congrArg Service.externalReferences h)) y482 hy482)) y483 hy483),
      fun y486 hy486 => fun y487 hy487 => (Json.array_inv ((Json.opt_inv e4 hn (.tail _ (.tail _ (.tail _ (.tail _ (.tail _ (.tail _ (.tail _ (.tail _ (.tail _ (.tail _ (.tail _ (.tail _ (.tail _ (.head _)))))))))))))) (congrArg Service.services h)) y486 hy486)) y487 hy487,
      fun hv => absurd rfl hv⟩
  | v1_4 =>
    have hn : ["bom-ref", "provider", "group", "name", "version", "description", "endpoints", "authenticated", "x-trust-boundary", "data", "licenses", "externalReferences", "properties", "services", "signature"].Nodup := by decide
    have h := bindWith (Json.fields_mk _) h
    obtain ⟨_, _, h⟩ := bindInv h
    obtain ⟨_, _, h⟩ := bindInv h
    obtain ⟨_, _, h⟩ := bindInv h
    obtain ⟨_, _, h⟩ := bindInv h
    obtain ⟨_, _, h⟩ := bindInv h
    obtain ⟨_, _, h⟩ := bindInv h
    obtain ⟨_, _, h⟩ := bindInv h
    obtain ⟨_, _, h⟩ := bindInv h
    obtain ⟨_, _, h⟩ := bindInv h
    obtain ⟨_, e1, h⟩ := bindInv h
    obtain ⟨_, e2, h⟩ := bindInv h
    obtain ⟨_, e3, h⟩ := bindInv h
    obtain ⟨_, _, h⟩ := bindInv h
    obtain ⟨_, e4, h⟩ := bindInv h
    obtain ⟨_, e5, h⟩ := bindInv h
    obtain ⟨_, _, h⟩ := bindInv h
    have h := Except.ok.inj h
    exact ⟨fun y497 hy497 => ServiceDataChoice.json_only .v1_4 ((Json.opt_inv e1 hn (.tail _ (.tail _ (.tail _ (.tail _ (.tail _ (.tail _ (.tail _ (.tail _ (.tail _ (.head _)))))))))) (congrArg Service.data h)) y497 hy497),
      fun y498 hy498 => Licenses.json_only .v1_4 ((Json.opt_inv e2 hn (.tail _ (.tail _ (.tail _ (.tail _ (.tail _ (.tail _ (.tail _ (.tail _ (.tail _ (.tail _ (.head _))))))))))) (congrArg Service.licenses h)) y498 hy498),
      fun y499 hy499 => fun y500 hy500 => ExternalReference.json_only ((Json.array_inv_id ((Json.opt_inv_id e3 hn (.tail _ (.tail _ (.tail _ (.tail _ (.tail _ (.tail _ (.tail _ (.tail _ (.tail _ (.tail _ (.tail _ (.head _)))))))))))) (congrArg Service.externalReferences h)) y499 hy499)) y500 hy500),
      fun y503 hy503 => fun y504 hy504 => (Json.array_inv ((Json.opt_inv e4 hn (.tail _ (.tail _ (.tail _ (.tail _ (.tail _ (.tail _ (.tail _ (.tail _ (.tail _ (.tail _ (.tail _ (.tail _ (.tail _ (.head _)))))))))))))) (congrArg Service.services h)) y503 hy503)) y504 hy504,
      fun _ => fun y505 hy505 => Signature.json_only ((Json.opt_inv_id e5 hn (.tail _ (.tail _ (.tail _ (.tail _ (.tail _ (.tail _ (.tail _ (.tail _ (.tail _ (.tail _ (.tail _ (.tail _ (.tail _ (.tail _ (.head _))))))))))))))) (congrArg Service.signature h)) y505 hy505)⟩
  | v1_5 =>
    have hn : ["bom-ref", "provider", "group", "name", "version", "description", "endpoints", "authenticated", "x-trust-boundary", "data", "licenses", "externalReferences", "properties", "services", "signature", "trustZone"].Nodup := by decide
    have h := bindWith (Json.fields_mk _) h
    obtain ⟨_, _, h⟩ := bindInv h
    obtain ⟨_, _, h⟩ := bindInv h
    obtain ⟨_, _, h⟩ := bindInv h
    obtain ⟨_, _, h⟩ := bindInv h
    obtain ⟨_, _, h⟩ := bindInv h
    obtain ⟨_, _, h⟩ := bindInv h
    obtain ⟨_, _, h⟩ := bindInv h
    obtain ⟨_, _, h⟩ := bindInv h
    obtain ⟨_, _, h⟩ := bindInv h
    obtain ⟨_, e1, h⟩ := bindInv h
    obtain ⟨_, e2, h⟩ := bindInv h
    obtain ⟨_, e3, h⟩ := bindInv h
    obtain ⟨_, _, h⟩ := bindInv h
    obtain ⟨_, e4, h⟩ := bindInv h
    obtain ⟨_, e5, h⟩ := bindInv h
    obtain ⟨_, _, h⟩ := bindInv h
    have h := Except.ok.inj h
    exact ⟨fun y515 hy515 => ServiceDataChoice.json_only .v1_5 ((Json.opt_inv e1 hn (.tail _ (.tail _ (.tail _ (.tail _ (.tail _ (.tail _ (.tail _ (.tail _ (.tail _ (.head _)))))))))) (congrArg Service.data h)) y515 hy515),
      fun y516 hy516 => Licenses.json_only .v1_5 ((Json.opt_inv e2 hn (.tail _ (.tail _ (.tail _ (.tail _ (.tail _ (.tail _ (.tail _ (.tail _ (.tail _ (.tail _ (.head _))))))))))) (congrArg Service.licenses h)) y516 hy516),
      fun y517 hy517 => fun y518 hy518 => ExternalReference.json_only ((Json.array_inv_id ((Json.opt_inv_id e3 hn (.tail _ (.tail _ (.tail _ (.tail _ (.tail _ (.tail _ (.tail _ (.tail _ (.tail _ (.tail _ (.tail _ (.head _)))))))))))) (congrArg Service.externalReferences h)) y517 hy517)) y518 hy518),
      fun y521 hy521 => fun y522 hy522 => (Json.array_inv ((Json.opt_inv e4 hn (.tail _ (.tail _ (.tail _ (.tail _ (.tail _ (.tail _ (.tail _ (.tail _ (.tail _ (.tail _ (.tail _ (.tail _ (.tail _ (.head _)))))))))))))) (congrArg Service.services h)) y521 hy521)) y522 hy522,
      fun _ => fun y523 hy523 => Signature.json_only ((Json.opt_inv_id e5 hn (.tail _ (.tail _ (.tail _ (.tail _ (.tail _ (.tail _ (.tail _ (.tail _ (.tail _ (.tail _ (.tail _ (.tail _ (.tail _ (.tail _ (.head _))))))))))))))) (congrArg Service.signature h)) y523 hy523)⟩

theorem Service.json_onlyN (v : SpecVersion) : ∀ {n : Nat} {x : Service},
    Service.ofJsonN v n (Service.toJson v x) = .ok (x.at v) → Service.JsonOkN v n x
  | 0, _, h => nomatch h
  | _ + 1, _, h => Service.JsonOkWith.imp (Service.json_onlyWith v h) fun _ h => Service.json_onlyN v h

theorem Service.json_only (v : SpecVersion) {x : Service}
    (h : Service.ofJson v (Service.toJson v x) = .ok (x.at v)) : Service.JsonOk v x :=
  Service.json_onlyN v h

theorem VulnerabilityRating.json_only {x : VulnerabilityRating}
    (h : VulnerabilityRating.ofJson (VulnerabilityRating.toJson x) = .ok x) :
    VulnerabilityRating.JsonOk x := by
  have hn : ["source", "score", "severity", "method", "vector", "justification"].Nodup := by decide
  have h := bindWith (Json.fields_mk _) h
  obtain ⟨_, _, h⟩ := bindInv h
  obtain ⟨_, e1, h⟩ := bindInv h
  obtain ⟨_, e2, h⟩ := bindInv h
  obtain ⟨_, e3, h⟩ := bindInv h
  obtain ⟨_, _, h⟩ := bindInv h
  obtain ⟨_, _, h⟩ := bindInv h
  have h := Except.ok.inj h
  exact ⟨fun y596 hy596 => Json.f32_inv ((Json.opt_inv_id e1 hn (.tail _ (.head _)) (congrArg VulnerabilityRating.score h)) y596 hy596),
    fun y597 hy597 => Json.enum_inv ((Json.opt_inv_id e2 hn (.tail _ (.tail _ (.head _))) (congrArg VulnerabilityRating.severity h)) y597 hy597),
    fun y598 hy598 => Json.enum_inv ((Json.opt_inv_id e3 hn (.tail _ (.tail _ (.tail _ (.head _)))) (congrArg VulnerabilityRating.scoreMethod h)) y598 hy598)⟩

theorem Frame.json_only {x : Frame}
    (h : Frame.ofJson (Frame.toJson x) = .ok x) :
    Frame.JsonOk x := by
  have hn : ["package", "module", "function", "parameters", "line", "column", "fullFilename"].Nodup := by decide
  have h := bindWith (Json.fields_mk _) h
  obtain ⟨_, _, h⟩ := bindInv h
  obtain ⟨_, _, h⟩ := bindInv h
  obtain ⟨_, _, h⟩ := bindInv h
  obtain ⟨_, _, h⟩ := bindInv h
  obtain ⟨_, e1, h⟩ := bindInv h
  obtain ⟨_, e2, h⟩ := bindInv h
  obtain ⟨_, _, h⟩ := bindInv h
  have h := Except.ok.inj h
  exact ⟨fun y620 hy620 => Json.u32_inv ((Json.opt_inv_id e1 hn (.tail _ (.tail _ (.tail _ (.tail _ (.head _))))) (congrArg Frame.line h)) y620 hy620),
    fun y621 hy621 => Json.u32_inv ((Json.opt_inv_id e2 hn (.tail _ (.tail _ (.tail _ (.tail _ (.tail _ (.head _)))))) (congrArg Frame.column h)) y621 hy621)⟩

theorem Callstack.json_only {x : Callstack}
    (h : Callstack.ofJson (Callstack.toJson x) = .ok x) :
    Callstack.JsonOk x := by
  have hn : ["frames"].Nodup := by decide
  have h := bindWith (Json.fields_mk _) h
  obtain ⟨_, e1, h⟩ := bindInv h
  have h := Except.ok.inj h
  exact ⟨fun y638 hy638 => Frame.json_only ((Json.array_inv_id (Json.req_inv e1 hn (.head _) (congrArg Callstack.frames h))) y638 hy638)⟩

theorem Method.json_only {x : Method}
    (h : Method.ofJson (Method.toJson x) = .ok x) :
    Method.JsonOk x := by
  have hn : ["technique", "confidence", "value"].Nodup := by decide
  have h := bindWith (Json.fields_mk _) h
  obtain ⟨_, _, h⟩ := bindInv h
  obtain ⟨_, e1, h⟩ := bindInv h
  obtain ⟨_, _, h⟩ := bindInv h
  have h := Except.ok.inj h
  exact ⟨Json.f32_inv (Json.req_inv e1 hn (.tail _ (.head _)) (congrArg Method.confidence h))⟩

theorem Identity.json_only {x : Identity}
    (h : Identity.ofJson (Identity.toJson x) = .ok x) :
    Identity.JsonOk x := by
  have hn : ["field", "confidence", "methods", "tools"].Nodup := by decide
  have h := bindWith (Json.fields_mk _) h
  obtain ⟨_, e1, h⟩ := bindInv h
  obtain ⟨_, e2, h⟩ := bindInv h
  obtain ⟨_, e3, h⟩ := bindInv h
  obtain ⟨_, _, h⟩ := bindInv h
  have h := Except.ok.inj h
  exact ⟨Json.enum_inv (Json.req_inv e1 hn (.head _) (congrArg Identity.field h)),
    fun y645 hy645 => Json.f32_inv ((Json.opt_inv_id e2 hn (.tail _ (.head _)) (congrArg Identity.confidence h)) y645 hy645),
    fun y646 hy646 => fun y647 hy647 => Method.json_only ((Json.array_inv_id ((Json.opt_inv_id e3 hn (.tail _ (.tail _ (.head _))) (congrArg Identity.methods h)) y646 hy646)) y647 hy647)⟩

theorem ComponentEvidence.json_only (v : SpecVersion) {x : ComponentEvidence}
    (h : ComponentEvidence.ofJson v (ComponentEvidence.toJson v x) = .ok (x.at v)) :
    ComponentEvidence.JsonOk v x := by
  cases v with
  | v1_3 =>
    have hn : ["licenses", "copyright"].Nodup := by decide
    have h := bindWith (Json.fields_mk _) h
    obtain ⟨_, e1, h⟩ := bindInv h
    obtain ⟨_, _, h⟩ := bindInv h
    obtain ⟨_, _, h⟩ := bindInv h
    obtain ⟨_, _, h⟩ := bindInv h
    obtain ⟨_, _, h⟩ := bindInv h
    have h := Except.ok.inj h
    exact ⟨fun y659 hy659 => Licenses.json_only .v1_3 ((Json.opt_inv e1 hn (.head _) (congrArg ComponentEvidence.licenses h)) y659 hy659),
      fun hv => (nomatch hv),
      fun hv => (nomatch hv)⟩
  | v1_4 =>
    have hn : ["licenses", "copyright"].Nodup := by decide
    have h := bindWith (Json.fields_mk _) h
    obtain ⟨_, e1, h⟩ := bindInv h
    obtain ⟨_, _, h⟩ := bindInv h
    obtain ⟨_, _, h⟩ := bindInv h
    obtain ⟨_, _, h⟩ := bindInv h
    obtain ⟨_, _, h⟩ := bindInv h
    have h := Except.ok.inj h
    exact ⟨fun y662 hy662 => Licenses.json_only .v1_4 ((Json.opt_inv e1 hn (.head _) (congrArg ComponentEvidence.licenses h)) y662 hy662),
      fun hv => (nomatch hv),
      fun hv => (nomatch hv)⟩
  | v1_5 =>
    have hn : ["licenses", "copyright", "occurrences", "callstack", "identity"].Nodup := by decide
    have h := bindWith (Json.fields_mk _) h
    obtain ⟨_, e1, h⟩ := bindInv h
    obtain ⟨_, _, h⟩ := bindInv h
    obtain ⟨_, _, h⟩ := bindInv h
    obtain ⟨_, e2, h⟩ := bindInv h
    obtain ⟨_, e3, h⟩ := bindInv h
    have h := Except.ok.inj h
    exact ⟨fun y665 hy665 => Licenses.json_only .v1_5 ((Json.opt_inv e1 hn (.head _) (congrArg ComponentEvidence.licenses h)) y665 hy665),
      fun _ => fun y670 hy670 => Callstack.json_only ((Json.opt_inv_id e2 hn (.tail _ (.tail _ (.tail _ (.head _)))) (congrArg ComponentEvidence.callstack h)) y670 hy670),
      fun _ => fun y671 hy671 => Identity.json_only ((Json.opt_inv_id e3 hn (.tail _ (.tail _ (.tail _ (.tail _ (.head _))))) (congrArg ComponentEvidence.identity h)) y671 hy671)⟩

end Cdx
