import Verif.Lemmas.Conforms.Attr
import Verif.Lemmas.ElemSound
import Verif.Lemmas.Schema
import Mathlib.Tactic.CasesM

/-!
# Basic elements conform to the JSON schema
-/

namespace Cdx

open Spec

set_option linter.unusedVariables false
set_option linter.unusedSimpArgs false
set_option maxRecDepth 8000

variable {F : Formats} {v : SpecVersion}

/-- Split a hypothesis about an element into what it says about the element and its parts. -/
macro "sound_simp" "at" h:ident : tactic => `(tactic|
  simp only [List.forall_mem_append, List.forall_mem_cons, forall_mem_opt, forall_mem_many,
    List.forall_mem_map, List.append_nil, List.nil_append, List.not_mem_nil, false_implies,
    implies_true, and_true, true_and, ne_eq, reduceCtorEq, not_false_eq_true, not_true_eq_false,
    true_implies] at $h:ident)

theorem forall_mem_getD {α : Type} {o : Option (List α)} {P : α → Prop} :
    (∀ x ∈ o.getD [], P x) ↔ ∀ l, o = some l → ∀ x ∈ l, P x := by
  cases o <;> simp

/-- The same with the elements inside some kinds of parts. -/
macro "sound_all" "[" ls:Lean.Parser.Tactic.simpLemma,* "]" "at" h:ident : tactic => `(tactic|
  simp only [List.forall_mem_append, List.forall_mem_cons, forall_mem_opt, forall_mem_many,
    List.forall_mem_map, List.append_nil, List.nil_append, List.not_mem_nil, false_implies,
    implies_true, and_true, true_and, ne_eq, reduceCtorEq, not_false_eq_true, not_true_eq_false,
    true_implies, forall_and, imp_and, forall_mem_getD, Option.bind_eq_some_iff, forall_exists_index, and_imp, $ls,*] at $h:ident)

set_option hygiene false in
/-- Prove what `schema_simp` has left over from what is known about the parts. -/
macro "fits_close" h:ident : tactic => `(tactic|
  (try sound_simp at $h:ident
   try casesm* _ ∧ _
   all_goals ((repeat' apply And.intro) <;> (intros; solve_by_elim (maxDepth := 10) using schema_fits))))

/-- Prove that the name of a value of an enumeration is one of the values in the schema. -/
macro "enum_close" h:ident x:ident "[" ls:Lean.Parser.Tactic.simpLemma,* "]" : tactic => `(tactic|
  (cases $x:ident <;> simp_all [OneOf, $ls,*]))

theorem rule_of_sound {e : Elem} (h : e.Sound F v) : e.schemaRule F v := h e (.refl e)

@[schema_fits]
theorem uri_of_sound {x : Uri} (h : (Elem.uri x).Sound F v) : F "iri-reference" x := rule_of_sound h

@[schema_fits]
theorem dateTime_of_sound {x : DateTime} (h : (Elem.dateTime x).Sound F v) : F "date-time" x :=
  rule_of_sound h

@[schema_fits]
theorem refUri_of_sound {x : RefUri} (h : (Elem.refUri x).Sound F v) : F "iri-reference" x.display :=
  rule_of_sound h

theorem not_same_str {x y : String} : ¬ Same (.str x) (.str y) ↔ x ≠ y :=
  not_congr ⟨fun h => by cases h; rfl, fun h => by rw [h]; exact .str y⟩

@[schema_fits]
theorem pairwise_not_same_str {l : List String} (h : l.Nodup) :
    l.Pairwise (fun x y => ¬ Same (.str x) (.str y)) := by
  simp only [not_same_str]
  exact h

@[schema_fits]
theorem refType_fits {r : String} (h : RefOk v r) : Fits F v "refType" (.str r) := by
  cases v
  · refine fits_ref (s := Schema13.refType) rfl ?_
    schema_simp [Schema13.refType]
  · refine fits_ref (s := Schema14.refType) rfl ?_
    schema_simp [Schema14.refType]
  · refine fits_ref (s := Schema15.refType) rfl ?_
    schema_simp [Schema15.refType]
    have := h rfl
    rcases Nat.eq_zero_or_pos r.length with h' | h'
    · exact absurd (String.ext (List.eq_nil_of_length_eq_zero h')) this
    · exact h'

@[schema_fits]
theorem refLinkType_fits {r : String} (h : RefOk .v1_5 r) : Fits F .v1_5 "refLinkType" (.str r) := by
  refine fits_ref (s := Schema15.refLinkType) rfl ?_
  schema_simp [Schema15.refLinkType]
  exact refType_fits h

@[schema_fits]
theorem spdx_fits {x : String} (h : (Elem.spdxId x).Sound F v) : Fits F v "spdx" (.str x) := by
  have h := rule_of_sound h
  cases v <;>
  · refine fits_ref (s := SchemaSpdx.spdx) rfl ?_
    schema_simp [SchemaSpdx.spdx]
    exact h

@[schema_fits]
theorem hashContent_fits {x : String} (h : (Elem.hashValue x).Sound F v) :
    Fits F v "hash-content" (.str x) := by
  have h := rule_of_sound h
  cases v
  · refine fits_ref (s := Schema13.hashContent) rfl ?_
    schema_simp [Schema13.hashContent]
    exact h
  · refine fits_ref (s := Schema14.hashContent) rfl ?_
    schema_simp [Schema14.hashContent]
    exact h
  · refine fits_ref (s := Schema15.hashContent) rfl ?_
    schema_simp [Schema15.hashContent]
    exact h

@[schema_fits]
theorem HashAlgorithm.fits {x : HashAlgorithm} (h : (Elem.hashAlgorithm x).Sound F v) :
    Fits F v "hash-alg" (.str x.display) := by
  have h := (sound_hashAlgorithm.mp h).1
  cases v
  · refine fits_ref (s := Schema13.hashAlg) rfl ?_
    schema_simp [Schema13.hashAlg]
    enum_close h x [HashAlgorithm.display]
  · refine fits_ref (s := Schema14.hashAlg) rfl ?_
    schema_simp [Schema14.hashAlg]
    enum_close h x [HashAlgorithm.display]
  · refine fits_ref (s := Schema15.hashAlg) rfl ?_
    schema_simp [Schema15.hashAlg]
    enum_close h x [HashAlgorithm.display]

@[schema_fits]
theorem Property.fits {x : Property} : Fits F v "property" x.toJson := by
  cases v
  · refine fits_ref (s := Schema13.property) rfl ?_
    schema_simp [Schema13.property, Property.toJson]
  · refine fits_ref (s := Schema14.property) rfl ?_
    schema_simp [Schema14.property, Property.toJson]
  · refine fits_ref (s := Schema15.property) rfl ?_
    schema_simp [Schema15.property, Property.toJson]

@[schema_fits]
theorem base64_of_attachedText {e : Encoding} (h : e = .base64) : OneOf ["base64"] e.display := by
  subst h
  simp [OneOf, Encoding.display]

@[schema_fits]
theorem base64_of_attachment {x : String} (h : (Elem.attachmentEncoding x).Sound F v) : OneOf ["base64"] x := by
  have h : x = "base64" := rule_of_sound h
  simp [OneOf, h]

@[schema_fits]
theorem referenceType13 {x : ExternalReferenceType} (h : (Elem.externalReferenceType x).Sound F .v1_3) :
    OneOf ["vcs", "issue-tracker", "website", "advisories", "bom", "mailing-list", "social", "chat",
      "documentation", "support", "distribution", "license", "build-meta", "build-system", "other"] x.display := by
  have h := (sound_externalReferenceType.mp h).1
  enum_close h x [ReferenceTypeIn, ExternalReferenceType.display]

@[schema_fits]
theorem referenceType14 {x : ExternalReferenceType} (h : (Elem.externalReferenceType x).Sound F .v1_4) :
    OneOf ["vcs", "issue-tracker", "website", "advisories", "bom", "mailing-list", "social", "chat",
      "documentation", "support", "distribution", "license", "build-meta", "build-system", "release-notes",
      "other"] x.display := by
  have h := (sound_externalReferenceType.mp h).1
  enum_close h x [ReferenceTypeIn, ExternalReferenceType.display]

@[schema_fits]
theorem referenceType15 {x : ExternalReferenceType} (h : (Elem.externalReferenceType x).Sound F .v1_5) :
    OneOf ["vcs", "issue-tracker", "website", "advisories", "bom", "mailing-list", "social", "chat",
      "documentation", "support", "distribution", "distribution-intake", "license", "build-meta",
      "build-system", "release-notes", "security-contact", "model-card", "log", "configuration", "evidence",
      "formulation", "attestation", "threat-model", "adversary-model", "risk-assessment",
      "vulnerability-assertion", "exploitability-statement", "pentest-report", "static-analysis-report",
      "dynamic-analysis-report", "runtime-analysis-report", "component-analysis-report", "maturity-report",
      "certification-report", "codified-infrastructure", "quality-metrics", "poam", "other"] x.display := by
  have h := (sound_externalReferenceType.mp h).1
  enum_close h x [ReferenceTypeIn, ExternalReferenceType.display]

@[schema_fits]
theorem OrganizationalContact.fits {x : OrganizationalContact} (h : (Elem.organizationalContact x).Sound F v) :
    Fits F v "organizationalContact" (OrganizationalContact.toJson x) := by
  have h := sound_organizationalContact.mp h
  cases v
  · refine fits_ref (s := Schema13.organizationalContact) rfl ?_
    schema_simp [Schema13.organizationalContact, OrganizationalContact.toJson]
    fits_close h
  · refine fits_ref (s := Schema14.organizationalContact) rfl ?_
    schema_simp [Schema14.organizationalContact, OrganizationalContact.toJson]
    fits_close h
  · refine fits_ref (s := Schema15.organizationalContact) rfl ?_
    schema_simp [Schema15.organizationalContact, OrganizationalContact.toJson]
    fits_close h

@[schema_fits]
theorem OrganizationalEntity.fits {x : OrganizationalEntity} (h : (Elem.organizationalEntity x).Sound F v) :
    Fits F v "organizationalEntity" (OrganizationalEntity.toJson x) := by
  have h := sound_organizationalEntity.mp h
  cases v
  · refine fits_ref (s := Schema13.organizationalEntity) rfl ?_
    schema_simp [Schema13.organizationalEntity, OrganizationalEntity.toJson]
    fits_close h
  · refine fits_ref (s := Schema14.organizationalEntity) rfl ?_
    schema_simp [Schema14.organizationalEntity, OrganizationalEntity.toJson]
    fits_close h
  · refine fits_ref (s := Schema15.organizationalEntity) rfl ?_
    schema_simp [Schema15.organizationalEntity, OrganizationalEntity.toJson]
    fits_close h

@[schema_fits]
theorem AttachedText.fits {x : AttachedText} (h : (Elem.attachedText x).Sound F v) :
    Fits F v "attachment" (AttachedText.toJson x) := by
  have h := sound_attachedText.mp h
  cases v
  · refine fits_ref (s := Schema13.attachment) rfl ?_
    schema_simp [Schema13.attachment, AttachedText.toJson]
    fits_close h
  · refine fits_ref (s := Schema14.attachment) rfl ?_
    schema_simp [Schema14.attachment, AttachedText.toJson]
    fits_close h
  · refine fits_ref (s := Schema15.attachment) rfl ?_
    schema_simp [Schema15.attachment, AttachedText.toJson]
    fits_close h

@[schema_fits]
theorem Attachment.fits {x : Attachment} (h : (Elem.attachment x).Sound F v) :
    Fits F v "attachment" (Attachment.toJson x) := by
  have h := sound_attachment.mp h
  cases v
  · refine fits_ref (s := Schema13.attachment) rfl ?_
    schema_simp [Schema13.attachment, Attachment.toJson]
    fits_close h
  · refine fits_ref (s := Schema14.attachment) rfl ?_
    schema_simp [Schema14.attachment, Attachment.toJson]
    fits_close h
  · refine fits_ref (s := Schema15.attachment) rfl ?_
    schema_simp [Schema15.attachment, Attachment.toJson]
    fits_close h

@[schema_fits]
theorem Hash.fits {x : Hash} (h : (Elem.hash x).Sound F v) :
    Fits F v "hash" (Hash.toJson x) := by
  have h := sound_hash.mp h
  cases v
  · refine fits_ref (s := Schema13.hash) rfl ?_
    schema_simp [Schema13.hash, Hash.toJson]
    fits_close h
  · refine fits_ref (s := Schema14.hash) rfl ?_
    schema_simp [Schema14.hash, Hash.toJson]
    fits_close h
  · refine fits_ref (s := Schema15.hash) rfl ?_
    schema_simp [Schema15.hash, Hash.toJson]
    fits_close h

@[schema_fits]
theorem ExternalReference.fits {x : ExternalReference} (h : (Elem.externalReference x).Sound F v) :
    Fits F v "externalReference" (ExternalReference.toJson x) := by
  have h := sound_externalReference.mp h
  cases v
  · refine fits_ref (s := Schema13.externalReference) rfl ?_
    schema_simp [Schema13.externalReference, ExternalReference.toJson]
    fits_close h
  · refine fits_ref (s := Schema14.externalReference) rfl ?_
    schema_simp [Schema14.externalReference, ExternalReference.toJson]
    fits_close h
  · refine fits_ref (s := Schema15.externalReference) rfl ?_
    schema_simp [Schema15.externalReference, ExternalReference.toJson]
    simp only [refUri_of_sound (v := .v1_5) (h.2 (.refUri x.url) (by simp)), true_or, true_and]
    fits_close h

end Cdx
