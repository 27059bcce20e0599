import Verif.Lemmas.Conforms.Basic

/-!
# Licenses, signatures and the small parts of components conform to the JSON schema
-/

namespace Cdx

open Spec

set_option linter.unusedVariables false
set_option linter.unusedSimpArgs false
set_option maxRecDepth 8000

variable {F : Formats} {v : SpecVersion}

theorem LicenseContact.toJson_organization (y : OrganizationalEntity) :
    LicenseContact.toJson (.organization y) = Json.mk [("organization", some y.toJson)] := rfl

theorem LicenseContact.toJson_contact (y : OrganizationalContact) :
    LicenseContact.toJson (.contact y) = Json.mk [("individual", some y.toJson)] := rfl

@[schema_fits]
theorem LicenseType.named {x : LicenseType} (h : (Elem.licenseType x).Sound F v) :
    OneOf ["academic", "appliance", "client-access", "concurrent-user", "core-points", "custom-metric",
      "device", "evaluation", "named-user", "node-locked", "oem", "perpetual", "processor-points",
      "subscription", "user", "other"] x.display := by
  have h := (sound_licenseType.mp h).1
  enum_close h x [LicenseType.display]

theorem sound_licenseContact_fits {x : LicenseContact} (h : (Elem.licenseContact x).Sound F v) :
    (∃ y, x = .organization y ∧ (Elem.organizationalEntity y).Sound F v) ∨
      ∃ y, x = .contact y ∧ (Elem.organizationalContact y).Sound F v := by
  cases x with
  | organization y =>
    have h := sound_licenseContact_organization.mp h
    sound_simp at h
    exact .inl ⟨y, rfl, h.2⟩
  | contact y =>
    have h := sound_licenseContact_contact.mp h
    sound_simp at h
    exact .inr ⟨y, rfl, h.2⟩

/-- The schema of the contacts in commercial licensing. -/
def contactSchema : Schema :=
  .allOf [.kw (.type .object), .kw (.closed ["organization", "individual"]),
    .properties [("organization", .ref "organizationalEntity"), ("individual", .ref "organizationalContact")],
    .oneOf [.kw (.required ["organization"]), .kw (.required ["individual"])]]

theorem LicenseContact.valid {x : LicenseContact} (h : (Elem.licenseContact x).Sound F .v1_5) :
    Valid (schemaContext F .v1_5) contactSchema x.toJson := by
  rcases sound_licenseContact_fits h with ⟨y, rfl, h'⟩ | ⟨y, rfl, h'⟩
  · schema_simp [contactSchema, LicenseContact.toJson_organization, valid_oneOf_two, invalid_kw]
    exact OrganizationalEntity.fits h'
  · schema_simp [contactSchema, LicenseContact.toJson_contact, valid_oneOf_two, invalid_kw]
    exact OrganizationalContact.fits h'

/-- The schema of commercial licensing. -/
def licensingSchema : Schema :=
  .allOf [.kw (.type .object),
    .kw (.closed ["altIds", "licensor", "licensee", "purchaser", "purchaseOrder", "licenseTypes", "lastRenewal",
      "expiration"]),
    .properties [("altIds", .allOf [.kw (.type .array), .items (.kw (.type .string))]),
      ("licensor", contactSchema), ("licensee", contactSchema), ("purchaser", contactSchema),
      ("purchaseOrder", .kw (.type .string)),
      ("licenseTypes", .allOf [.kw (.type .array), .items (.allOf [.kw (.type .string),
        .kw (.enum ["academic", "appliance", "client-access", "concurrent-user", "core-points", "custom-metric",
          "device", "evaluation", "named-user", "node-locked", "oem", "perpetual", "processor-points",
          "subscription", "user", "other"])])]),
      ("lastRenewal", .allOf [.kw (.type .string), .kw (.format "date-time")]),
      ("expiration", .allOf [.kw (.type .string), .kw (.format "date-time")])]]

theorem Licensing.valid {x : Licensing} (h : (Elem.licensing x).Sound F .v1_5) :
    Valid (schemaContext F .v1_5) licensingSchema x.toJson := by
  have h := sound_licensing.mp h
  obtain ⟨altIds, licensor, licensee, purchaser, purchaseOrder, licenseTypes, lastRenewal, expiration⟩ := x
  obtain ⟨⟨h1, h2, h3, h4, h5, h6, h7, h8⟩, h⟩ := h
  cases altIds with | none => exact absurd rfl h1 | some altIds =>
  cases licensor with | none => exact absurd rfl h2 | some licensor =>
  cases licensee with | none => exact absurd rfl h3 | some licensee =>
  cases purchaser with | none => exact absurd rfl h4 | some purchaser =>
  cases purchaseOrder with | none => exact absurd rfl h5 | some purchaseOrder =>
  cases licenseTypes with | none => exact absurd rfl h6 | some licenseTypes =>
  cases lastRenewal with | none => exact absurd rfl h7 | some lastRenewal =>
  cases expiration with | none => exact absurd rfl h8 | some expiration =>
  sound_simp at h
  simp only [Option.some.injEq, forall_eq', forall_eq] at h
  schema_simp [licensingSchema, Licensing.toJson, Json.orNull]
  have hv := @LicenseContact.valid F
  fits_close h

@[schema_fits]
theorem License.fits {x : License} (h : (Elem.license x).Sound F v) : Fits F v "license" (License.toJson v x) := by
  have h := sound_license.mp h
  obtain ⟨bomRef, i, text, url, licensing, properties⟩ := x
  sound_simp at h
  cases i with
  | spdxId i =>
    have hi : (Elem.spdxId i).Sound F v := by
      have hi := sound_licenseIdentifier_spdxId.mp (by casesm* _ ∧ _; assumption)
      sound_simp at hi
      exact hi.2
    cases v
    · refine fits_ref (s := Schema13.license) rfl ?_
      schema_simp [Schema13.license, License.toJson, LicenseIdentifier.toFields, valid_oneOf_two, invalid_kw]
      fits_close h
    · refine fits_ref (s := Schema14.license) rfl ?_
      schema_simp [Schema14.license, License.toJson, LicenseIdentifier.toFields, valid_oneOf_two, invalid_kw]
      fits_close h
    · have hL : ∀ y, licensing = some y → Valid (schemaContext F .v1_5) licensingSchema y.toJson :=
        fun y hy => Licensing.valid (by casesm* _ ∧ _; solve_by_elim)
      schema_simp [licensingSchema, contactSchema] at hL
      refine fits_ref (s := Schema15.license) rfl ?_
      schema_simp [Schema15.license, License.toJson, LicenseIdentifier.toFields, valid_oneOf_two, invalid_kw]
      fits_close h
  | name n =>
    cases v
    · refine fits_ref (s := Schema13.license) rfl ?_
      schema_simp [Schema13.license, License.toJson, LicenseIdentifier.toFields, valid_oneOf_two, invalid_kw]
      fits_close h
    · refine fits_ref (s := Schema14.license) rfl ?_
      schema_simp [Schema14.license, License.toJson, LicenseIdentifier.toFields, valid_oneOf_two, invalid_kw]
      fits_close h
    · have hL : ∀ y, licensing = some y → Valid (schemaContext F .v1_5) licensingSchema y.toJson :=
        fun y hy => Licensing.valid (by casesm* _ ∧ _; solve_by_elim)
      schema_simp [licensingSchema, contactSchema] at hL
      refine fits_ref (s := Schema15.license) rfl ?_
      schema_simp [Schema15.license, License.toJson, LicenseIdentifier.toFields, valid_oneOf_two, invalid_kw]
      fits_close h

end Cdx
