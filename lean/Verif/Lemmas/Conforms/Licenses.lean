import Verif.Lemmas.Conforms.Parts

/-!
# Lists of licenses and signatures conform to the JSON schema
-/

namespace Cdx

open Spec

set_option linter.unusedVariables false
set_option linter.unusedSimpArgs false
set_option maxRecDepth 8000

variable {F : Formats} {v : SpecVersion}

theorem LicenseChoice.toJson_license (l : License) :
    LicenseChoice.toJson v (.license l) = Json.mk [("license", some (License.toJson v l))] := rfl

theorem LicenseChoice.toJson_expression (e : SpdxExpression) :
    LicenseChoice.toJson v (.expression e) =
      Json.mk [("bomRef", e.bomRef.map Json.str), ("expression", some (Json.str e.expression))] := rfl

theorem sound_licenseChoice_fits {x : LicenseChoice} (h : (Elem.licenseChoice x).Sound F v) :
    (∃ y, x = .license y ∧ (Elem.license y).Sound F v) ∨
      ∃ y, x = .expression y ∧ (v ≠ .v1_3 → y.bomRef = none) := by
  cases x with
  | license y =>
    have h := sound_licenseChoice_license.mp h
    sound_simp at h
    exact .inl ⟨y, rfl, h.2⟩
  | expression y =>
    have h := sound_licenseChoice_expression.mp h
    sound_simp at h
    exact .inr ⟨y, rfl, rule_of_sound h.2⟩

@[schema_fits]
theorem LicenseChoice.fits13 {x : LicenseChoice} (h : (Elem.licenseChoice x).Sound F .v1_3) :
    Fits F .v1_3 "licenseChoice" (LicenseChoice.toJson .v1_3 x) := by
  refine fits_ref (s := Schema13.licenseChoice) rfl ?_
  rcases sound_licenseChoice_fits h with ⟨y, rfl, h'⟩ | ⟨y, rfl, h'⟩
  · schema_simp [Schema13.licenseChoice, LicenseChoice.toJson_license, valid_oneOf_two, invalid_kw]
    exact License.fits h'
  · schema_simp [Schema13.licenseChoice, LicenseChoice.toJson_expression, valid_oneOf_two, invalid_kw]

@[schema_fits]
theorem LicenseChoice.fits14 {x : LicenseChoice} (h : (Elem.licenseChoice x).Sound F .v1_4) :
    Fits F .v1_4 "licenseChoice" (LicenseChoice.toJson .v1_4 x) := by
  refine fits_ref (s := Schema14.licenseChoice) rfl ?_
  rcases sound_licenseChoice_fits h with ⟨y, rfl, h'⟩ | ⟨y, rfl, h'⟩
  · schema_simp [Schema14.licenseChoice, LicenseChoice.toJson_license, valid_oneOf_two, invalid_kw]
    exact License.fits h'
  · schema_simp [Schema14.licenseChoice, LicenseChoice.toJson_expression, valid_oneOf_two, invalid_kw]
    exact h' (by simp)

theorem allLicensesSchema_valid {x : Licenses}
    (h : ∀ c ∈ x, ∃ l, c = LicenseChoice.license l ∧ (Elem.license l).Sound F .v1_5) :
    Valid (schemaContext F .v1_5) (.allOf [.kw (.type .array),
      .items (.allOf [.kw (.type .object),
        .kw (.required ["license"]),
        .kw (.closed ["license"]),
        .properties [("license", .ref "license")]])]) (Json.ofList (LicenseChoice.toJson .v1_5) x) := by
  refine .allOf fun s hs => ?_
  simp only [List.mem_cons, List.not_mem_nil, or_false] at hs
  rcases hs with rfl | rfl
  · exact .kw trivial
  · refine valid_itemsOf.mpr fun c hc => ?_
    obtain ⟨l, rfl, hl⟩ := h c hc
    schema_simp [LicenseChoice.toJson_license]
    exact License.fits hl

@[schema_fits]
theorem Licenses.fits15 {x : Licenses} (h : (Elem.licenses x).Sound F .v1_5) :
    Fits F .v1_5 "licenseChoice" (Json.ofList (LicenseChoice.toJson .v1_5) x) := by
  have h := sound_licenses.mp h
  sound_simp at h
  obtain ⟨h1, h2⟩ := h
  refine fits_ref (s := Schema15.licenseChoice) rfl ?_
  rw [Schema15.licenseChoice, valid_allOf]
  simp only [List.forall_mem_cons, List.not_mem_nil, false_implies, implies_true, and_true]
  refine ⟨.kw trivial, valid_oneOf_two.mpr ?_⟩
  rcases h1 with h1 | ⟨e, rfl⟩
  · have h3 : ∀ c ∈ x, ∃ l, c = LicenseChoice.license l ∧ (Elem.license l).Sound F .v1_5 := by
      intro c hc
      obtain ⟨l, rfl⟩ := h1 c hc
      rcases sound_licenseChoice_fits (h2 _ hc) with ⟨y, hy, h'⟩ | ⟨y, hy, h'⟩
      · cases hy; exact ⟨_, rfl, h'⟩
      · cases hy
    refine .inl ⟨allLicensesSchema_valid h3, ?_⟩
    match x with
    | [] =>
      refine .allOf (.tail _ (.head _)) (.kw ?_)
      simp [Json.ofList, Keyword.Holds]
    | c :: l =>
      obtain ⟨y, rfl⟩ := h1 c (.head _)
      refine .allOf (.tail _ (.tail _ (.tail _ (.head _)))) (.itemAt (x := LicenseChoice.toJson .v1_5 (.license y)) rfl ?_)
      refine .allOf (.tail _ (.head _)) (.kw ?_)
      schema_simp [LicenseChoice.toJson_license]
  · have he : e.bomRef = none := by
      rcases sound_licenseChoice_fits (h2 _ (.head _)) with ⟨y, hy, h'⟩ | ⟨y, hy, h'⟩
      · cases hy
      · cases hy; exact h' (by simp)
    refine .inr ⟨?_, ?_⟩
    · refine .allOf (.tail _ (.head _)) (.items (x := LicenseChoice.toJson .v1_5 (.expression e)) (.head _) ?_)
      refine .allOf (.tail _ (.head _)) (.kw ?_)
      schema_simp [LicenseChoice.toJson_expression]
    · rw [valid_allOf]
      simp only [List.forall_mem_cons, List.not_mem_nil, false_implies, implies_true, and_true]
      refine ⟨.kw trivial, .kw (Nat.le_refl 1), .kw (Nat.le_refl 1), ?_, .kw (Nat.le_refl 1)⟩
      refine .itemAt fun l y hl hy => ?_
      cases hl
      cases hy
      schema_simp [LicenseChoice.toJson_expression]
      exact he

theorem Algorithm.toJson_known {a : Algorithm} (h : ∀ s, a ≠ .unknown s) :
    a.toJson = .str a.display ∧
      OneOf ["RS256", "RS384", "RS512", "PS256", "PS384", "PS512", "ES256", "ES384", "ES512",
        "Ed25519", "Ed448", "HS256", "HS384", "HS512"] a.display := by
  cases a <;> first | exact absurd rfl (h _) | exact ⟨rfl, by simp [OneOf, Algorithm.display]⟩

@[schema_fits]
theorem Signature.fits {x : Signature} (h : (Elem.signature x).Sound F v) (hv : v ≠ .v1_3) :
    Fits F v "signature" x.toJson := by
  obtain ⟨s, rfl⟩ : ∃ s, x = .single s := rule_of_sound h
  have h := sound_signature_single.mp h
  sound_simp at h
  have h := sound_signer.mp h.2
  sound_simp at h
  obtain ⟨h1, h2⟩ := rule_of_sound h
  obtain ⟨h1, h3⟩ := Algorithm.toJson_known h1
  have key : Valid (schemaContext F v) (.ref "jsf/signature") (Signer.toJson s) := by
    have hl : (schemaContext F v).defs.lookup "jsf/signature" = some SchemaJsf.jsfSignature := by
      cases v <;> rfl
    have hl' : (schemaContext F v).defs.lookup "jsf/signer" = some SchemaJsf.jsfSigner := by
      cases v <;> rfl
    refine .ref hl ?_
    rw [SchemaJsf.jsfSignature, valid_allOf]
    simp only [List.forall_mem_cons, List.not_mem_nil, false_implies, implies_true, and_true]
    refine ⟨.kw trivial, .oneOf (before := [_, _]) (after := []) (.ref hl' ?_) ?_ (by simp)⟩
    · schema_simp [SchemaJsf.jsfSigner, Signer.toJson, h1, valid_oneOf_two]
      exact .inl ⟨h3, .allOf (.tail _ (.head _)) (.kw h2)⟩
    · simp only [List.forall_mem_cons, List.not_mem_nil, false_implies, implies_true, and_true]
      refine ⟨.allOf (.head _) (.kw ?_), .allOf (.head _) (.kw ?_)⟩ <;>
      · schema_simp [Signer.toJson]
  cases v
  · exact absurd rfl hv
  · refine fits_ref (s := Schema14.signature) rfl key
  · refine fits_ref (s := Schema15.signature) rfl key

end Cdx
