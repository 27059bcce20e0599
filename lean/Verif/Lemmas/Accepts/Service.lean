import Verif.Lemmas.Accepts.Data

set_option linter.unusedSectionVars false
set_option linter.unusedVariables false

/-!
# Reading elements that conform to the format: services

Generated by a script from the arms of the readers and the table of the format.
-/

namespace Cdx

open Spec

variable {v : SpecVersion} {d : Nat} [F32Format] [ReadLimit]

theorem DataClassification.takes (H : DecimalsParse) : Takes v d DataClassification.readXml .classification := 
  takes_with (fun el attrs h => by
      obtain ⟨s0, h0⟩ := h.req el "flow" (by cases v <;> decide +kernel)
      simp [h0, bind, Except.bind]) (takes_simple rfl)

theorem ServiceData.takes (H : DecimalsParse) : Takes v d ServiceData.readXml .dataflow := 
  takes_struct ["classification", "governance", "source", "destination"] rfl (fun m (s : ServiceData.Vars) => (m = "classification" → s.classification.isSome = true)) (fun _ _ _ => ⟨_, rfl⟩)
    (armsTake_cons .classification (by cases v <;> decide +kernel) (armTakes (DataClassification.takes H) (by has_set) (by has_keep)) <|
      armsTake_cons .governance (by cases v <;> decide +kernel) (armTakes (DataGovernance.takes H) (by has_set) (by has_keep)) <|
      armsTake_cons .urls (by cases v <;> decide +kernel) (armTakes (takes_list (t' := .string) rfl (by cases v <;> rfl) (takes_simple rfl)) (by has_set) (by has_keep)) <|
      armsTake_cons .urls (by cases v <;> decide +kernel) (armTakes (takes_list (t' := .string) rfl (by cases v <;> rfl) (takes_simple rfl)) (by has_set) (by has_keep)) <|
      armsTake_nil)
    rfl (by cases v <;> decide +kernel)
    (fun el p st h => by
      have g0 := seen_one (v := v) (t := .dataflow) (st := st) (Has := fun m (s : ServiceData.Vars) => (m = "classification" → s.classification.isSome = true)) "classification" (by cases v <;> decide +kernel) h
      obtain ⟨x0, e0⟩ := Option.isSome_iff_exists.mp (g0 rfl)
      simp [Cdx.required, e0, bind, Except.bind])

theorem ServiceDataChoice.takes (H : DecimalsParse) : Takes v d (ServiceDataChoice.readXml v) .serviceData := 
  takes_struct (["classification"] ++ since15 v ["dataflow"] []) rfl (fun _ _ => True) (fun _ _ _ => ⟨_, rfl⟩)
    (armsTake_append (armsTake_cons .classification (by cases v <;> decide +kernel) (armTakes (DataClassification.takes H) (fun _ _ => trivial) fun _ _ _ _ => trivial) <|
      armsTake_nil) <|
      armsTake_since15 <|
      armsTake_cons .dataflow (by cases v <;> decide +kernel) (armTakes (ServiceData.takes H) (fun _ _ => trivial) fun _ _ _ _ => trivial) <|
      armsTake_nil)
    (by cases v <;> rfl) (by cases v <;> decide +kernel)
    (fun _ _ _ _ => ⟨_, rfl⟩)

theorem Service.takesWith (H : DecimalsParse) {sub : XElem Service} (hsub : Takes v d sub .service) : Takes v (d + 1) (Service.readXmlWith sub v) .service := 
  (takes_struct_has rfl (fun m (s : Service.Vars) => (m = "name" → s.name.isSome = true)) (fun _ _ _ => ⟨_, rfl⟩)
    (armsTake_append (armsTake_append (armsTake_cons .organizationalEntity (by cases v <;> decide +kernel) (armTakes (OrganizationalEntity.takes H) (by has_set) (by has_keep)) <|
      armsTake_cons .string (by cases v <;> decide +kernel) (armTakes (takes_simple rfl) (by has_set) (by has_keep)) <|
      armsTake_cons .string (by cases v <;> decide +kernel) (armTakes (takes_simple rfl) (by has_set) (by has_keep)) <|
      armsTake_cons .string (by cases v <;> decide +kernel) (armTakes (takes_simple rfl) (by has_set) (by has_keep)) <|
      armsTake_cons .string (by cases v <;> decide +kernel) (armTakes (takes_simple rfl) (by has_set) (by has_keep)) <|
      armsTake_cons .endpoints (by cases v <;> decide +kernel) (armTakes (takes_list (t' := .string) rfl (by cases v <;> rfl) (takes_simple rfl)) (by has_set) (by has_keep)) <|
      armsTake_cons .boolean (by cases v <;> decide +kernel) (armTakes (takes_bool rfl) (by has_set) (by has_keep)) <|
      armsTake_cons .boolean (by cases v <;> decide +kernel) (armTakes (takes_bool rfl) (by has_set) (by has_keep)) <|
      armsTake_cons .serviceData (by cases v <;> decide +kernel) (armTakes (ServiceDataChoice.takes H) (by has_set) (by has_keep)) <|
      armsTake_cons .licenses (by cases v <;> decide +kernel) (armTakes (Licenses.takes H) (by has_set) (by has_keep)) <|
      armsTake_cons .externalReferences (by cases v <;> decide +kernel) (armTakes (takes_list (t' := .externalReference) rfl (by cases v <;> rfl) (ExternalReference.takes H)) (by has_set) (by has_keep)) <|
      armsTake_cons .properties (by cases v <;> decide +kernel) (armTakes (takes_list (t' := .property) rfl (by cases v <;> rfl) (Property.takes H)) (by has_set) (by has_keep)) <|
      armsTake_cons .services (by cases v <;> decide +kernel) (armTakes (takes_list (t' := .service) rfl (by cases v <;> rfl) (hsub)) (by has_set) (by has_keep)) <|
      armsTake_nil) <|
      armsTake_since14 <|
      armsTake_other (by cases v <;> decide +kernel) <|
      armsTake_nil) <|
      armsTake_since15 <|
      armsTake_cons .string (by cases v <;> decide +kernel) (armTakes (takes_simple rfl) (by has_set) (by has_keep)) <|
      armsTake_nil)
    (skip_missing (["provider", "group", "name", "version", "description", "endpoints", "authenticated", "x-trust-boundary", "data", "licenses", "externalReferences", "properties", "services"] ++ since14 v ["signature"] [] ++ since15 v ["trustZone"] []) rfl (by cases v <;> rfl) (by intro n hn st; simp at hn; simp [hn]))
    (fun el p st h => by
      have g0 := seen_one (v := v) (t := .service) (st := st) (Has := fun m (s : Service.Vars) => (m = "name" → s.name.isSome = true)) "name" (by cases v <;> decide +kernel) h
      obtain ⟨x0, e0⟩ := Option.isSome_iff_exists.mp (g0 rfl)
      simp [Cdx.required, e0, bind, Except.bind]))

theorem Service.takesN (H : DecimalsParse) : ∀ n, Takes v n (Service.readXmlN v n) .service
  | 0 => fun _ _ _ _ _ h => absurd h (Nat.not_lt_zero _)
  | n + 1 => Service.takesWith H (Service.takesN H n)

theorem Service.takes (H : DecimalsParse) (hd : d ≤ ReadLimit.limit) : Takes v d (Service.readXml v) .service :=
  (Service.takesN H ReadLimit.limit).mono hd

end Cdx
