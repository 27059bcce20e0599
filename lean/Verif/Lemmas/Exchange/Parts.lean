import Verif.Lemmas.Exchange.Basic
import Verif.Lemmas.Accepts.Bom

set_option linter.unusedSectionVars false
set_option linter.unusedVariables false

/-!
# The order of child elements: the smaller parts

Generated by a script from the arms of the readers and the table of the format.
-/

namespace Cdx.Exchange

open Cdx.Spec

variable {v : SpecVersion} {d : Nat} [F32Format] [ReadLimit]

theorem AttachedText.stable (H : DecimalsParse) : Stable v d AttachedText.readXml .attachedText := stable_text rfl

theorem Property.stable (H : DecimalsParse) : Stable v d Property.readXml .property := stable_text rfl

theorem Hash.stable (H : DecimalsParse) : Stable v d Hash.readXml .hash := stable_text rfl

theorem OrganizationalContact.stable (H : DecimalsParse) : Stable v d OrganizationalContact.readXml .organizationalContact :=
  stable_struct ["name", "email", "phone"] rfl
    (.cons .string (by cases v <;> decide +kernel) (armHas (takes_simple rfl) (stable_text rfl)) <|
      .cons .string (by cases v <;> decide +kernel) (armHas (takes_simple rfl) (stable_text rfl)) <|
      .cons .string (by cases v <;> decide +kernel) (armHas (takes_simple rfl) (stable_text rfl)) <|
      .nil)
    rfl (.inl rfl)
    (by all_comm)

theorem OrganizationalEntity.stable (H : DecimalsParse) : Stable v d OrganizationalEntity.readXml .organizationalEntity :=
  stable_struct ["name", "url", "contact"] rfl
    (.cons .string (by cases v <;> decide +kernel) (armHas (takes_simple rfl) (stable_text rfl)) <|
      .cons .string (by cases v <;> decide +kernel) (armHas (takes_simple rfl) (stable_text rfl)) <|
      .cons .organizationalContact (by cases v <;> decide +kernel) (armHas (OrganizationalContact.takes H) (OrganizationalContact.stable H)) <|
      .nil)
    rfl (.inl rfl)
    (by all_comm)

theorem ExternalReference.stable (H : DecimalsParse) : Stable v d ExternalReference.readXml .externalReference :=
  stable_struct ["url", "comment", "hashes"] rfl
    (.cons .string (by cases v <;> decide +kernel) (armHas (takes_map (takes_simple rfl) _) (stable_text rfl)) <|
      .cons .string (by cases v <;> decide +kernel) (armHas (takes_simple rfl) (stable_text rfl)) <|
      .cons .hashes (by cases v <;> decide +kernel) (armHas (takes_list (t' := .hash) rfl (by cases v <;> rfl) (Hash.takes H)) (stable_list (t' := .hash) rfl (by cases v <;> rfl) (Hash.takes H) (stable_text rfl))) <|
      .nil)
    rfl (.inr (by cases v <;> decide +kernel))
    (by all_comm)

theorem VulnerabilitySource.stable (H : DecimalsParse) : Stable v d VulnerabilitySource.readXml .namedUrl :=
  stable_struct ["name", "url"] rfl
    (.cons .string (by cases v <;> decide +kernel) (armHas (takes_simple rfl) (stable_text rfl)) <|
      .cons .string (by cases v <;> decide +kernel) (armHas (takes_simple rfl) (stable_text rfl)) <|
      .nil)
    rfl (.inl rfl)
    (by all_comm)

theorem VulnerabilityReference.stable (H : DecimalsParse) : Stable v d VulnerabilityReference.readXml .vulnerabilityReference :=
  stable_struct ["id", "source"] rfl
    (.cons .string (by cases v <;> decide +kernel) (armHas (takes_simple rfl) (stable_text rfl)) <|
      .cons .namedUrl (by cases v <;> decide +kernel) (armHas (VulnerabilitySource.takes H) (VulnerabilitySource.stable H)) <|
      .nil)
    rfl (.inl rfl)
    (by all_comm)

theorem Advisory.stable (H : DecimalsParse) : Stable v d Advisory.readXml .advisory :=
  stable_struct ["title", "url"] rfl
    (.cons .string (by cases v <;> decide +kernel) (armHas (takes_simple rfl) (stable_text rfl)) <|
      .cons .string (by cases v <;> decide +kernel) (armHas (takes_simple rfl) (stable_text rfl)) <|
      .nil)
    rfl (.inl rfl)
    (by all_comm)

theorem VulnerabilityCredits.stable (H : DecimalsParse) : Stable v d VulnerabilityCredits.readXml .credits :=
  stable_struct ["organizations", "individuals"] rfl
    (.cons .organizations (by cases v <;> decide +kernel) (armHas (takes_list (t' := .organizationalEntity) rfl (by cases v <;> rfl) (OrganizationalEntity.takes H)) (stable_list (t' := .organizationalEntity) rfl (by cases v <;> rfl) (OrganizationalEntity.takes H) (OrganizationalEntity.stable H))) <|
      .cons .individuals (by cases v <;> decide +kernel) (armHas (takes_list (t' := .organizationalContact) rfl (by cases v <;> rfl) (OrganizationalContact.takes H)) (stable_list (t' := .organizationalContact) rfl (by cases v <;> rfl) (OrganizationalContact.takes H) (OrganizationalContact.stable H))) <|
      .nil)
    rfl (.inl rfl)
    (by all_comm)

theorem Dependency.stable (H : DecimalsParse) : Stable v d Dependency.readXml .dependency :=
  stable_struct ["dependency"] rfl
    (.cons .subDependency (by cases v <;> decide +kernel) (armHas (takes_subref) (stable_subref)) <|
      .nil)
    rfl (.inr (by cases v <;> decide +kernel))
    (by all_comm)

theorem Composition.stable (H : DecimalsParse) : Stable v d (Composition.readXml v) .composition :=
  stable_struct (["aggregate", "assemblies", "dependencies"] ++ since14 v ["signature"] [] ++ since15 v ["vulnerabilities"] []) rfl
    (.append (.append (.cons .string (by cases v <;> decide +kernel) (armHas (takes_map (takes_simple rfl) _) (stable_text rfl)) <|
      .cons .assemblies (by cases v <;> decide +kernel) (armHas (takes_list (t' := .reference) rfl (by cases v <;> rfl) (takes_ref rfl (by cases v <;> decide +kernel))) (stable_list (t' := .reference) rfl (by cases v <;> rfl) (takes_ref rfl (by cases v <;> decide +kernel)) (stable_empty rfl))) <|
      .cons .referencedDependencies (by cases v <;> decide +kernel) (armHas (takes_list (t' := .reference) rfl (by cases v <;> rfl) (takes_ref rfl (by cases v <;> decide +kernel))) (stable_list (t' := .reference) rfl (by cases v <;> rfl) (takes_ref rfl (by cases v <;> decide +kernel)) (stable_empty rfl))) <|
      .nil) <|
      .since14 <|
      .other (by cases v <;> decide +kernel) <|
      .nil) <|
      .since15 <|
      .cons .referencedVulnerabilities (by cases v <;> decide +kernel) (armHas (takes_list (t' := .reference) rfl (by cases v <;> rfl) (takes_ref rfl (by cases v <;> decide +kernel))) (stable_list (t' := .reference) rfl (by cases v <;> rfl) (takes_ref rfl (by cases v <;> decide +kernel)) (stable_empty rfl))) <|
      .nil)
    (by cases v <;> rfl) (.inr (by cases v <;> decide +kernel))
    (allComm_sub (by all_comm) (((List.Sublist.refl _).append since14_sublist).append since15_sublist))

theorem IdentifiableAction.stable (H : DecimalsParse) : Stable v d IdentifiableAction.readXml .identifiableAction :=
  stable_struct ["timestamp", "name", "email"] rfl
    (.cons .string (by cases v <;> decide +kernel) (armHas (takes_simple rfl) (stable_text rfl)) <|
      .cons .string (by cases v <;> decide +kernel) (armHas (takes_simple rfl) (stable_text rfl)) <|
      .cons .string (by cases v <;> decide +kernel) (armHas (takes_simple rfl) (stable_text rfl)) <|
      .nil)
    rfl (.inl rfl)
    (by all_comm)

theorem Commit.stable (H : DecimalsParse) : Stable v d Commit.readXml .commit :=
  stable_struct ["uid", "url", "author", "committer", "message"] rfl
    (.cons .string (by cases v <;> decide +kernel) (armHas (takes_simple rfl) (stable_text rfl)) <|
      .cons .string (by cases v <;> decide +kernel) (armHas (takes_simple rfl) (stable_text rfl)) <|
      .cons .identifiableAction (by cases v <;> decide +kernel) (armHas (IdentifiableAction.takes H) (IdentifiableAction.stable H)) <|
      .cons .identifiableAction (by cases v <;> decide +kernel) (armHas (IdentifiableAction.takes H) (IdentifiableAction.stable H)) <|
      .cons .string (by cases v <;> decide +kernel) (armHas (takes_simple rfl) (stable_text rfl)) <|
      .nil)
    rfl (.inl rfl)
    (by all_comm)

theorem Diff.stable (H : DecimalsParse) : Stable v d Diff.readXml .diff :=
  stable_struct ["text", "url"] rfl
    (.cons .attachedText (by cases v <;> decide +kernel) (armHas (AttachedText.takes H) (stable_text rfl)) <|
      .cons .string (by cases v <;> decide +kernel) (armHas (takes_simple rfl) (stable_text rfl)) <|
      .nil)
    rfl (.inl rfl)
    (by all_comm)

theorem Source.stable (H : DecimalsParse) : Stable v d Source.readXml .namedUrl :=
  stable_struct ["name", "url"] rfl
    (.cons .string (by cases v <;> decide +kernel) (armHas (takes_simple rfl) (stable_text rfl)) <|
      .cons .string (by cases v <;> decide +kernel) (armHas (takes_simple rfl) (stable_text rfl)) <|
      .nil)
    rfl (.inr (by cases v <;> decide +kernel))
    (by all_comm)

theorem Issue.stable (H : DecimalsParse) : Stable v d Issue.readXml .issue :=
  stable_struct ["id", "name", "description", "source", "references"] rfl
    (.cons .string (by cases v <;> decide +kernel) (armHas (takes_simple rfl) (stable_text rfl)) <|
      .cons .string (by cases v <;> decide +kernel) (armHas (takes_simple rfl) (stable_text rfl)) <|
      .cons .string (by cases v <;> decide +kernel) (armHas (takes_simple rfl) (stable_text rfl)) <|
      .cons .namedUrl (by cases v <;> decide +kernel) (armHas (Source.takes H) (Source.stable H)) <|
      .cons .urls (by cases v <;> decide +kernel) (armHas (takes_list (t' := .string) rfl (by cases v <;> rfl) (takes_simple rfl)) (stable_list (t' := .string) rfl (by cases v <;> rfl) (takes_simple rfl) (stable_text rfl))) <|
      .nil)
    rfl (.inl rfl)
    (by all_comm)

theorem Patch.stable (H : DecimalsParse) : Stable v d Patch.readXml .patch :=
  stable_struct ["diff", "resolves"] rfl
    (.cons .diff (by cases v <;> decide +kernel) (armHas (Diff.takes H) (Diff.stable H)) <|
      .cons .resolves (by cases v <;> decide +kernel) (armHas (takes_list (t' := .issue) rfl (by cases v <;> rfl) (Issue.takes H)) (stable_list (t' := .issue) rfl (by cases v <;> rfl) (Issue.takes H) (Issue.stable H))) <|
      .nil)
    rfl (.inl rfl)
    (by all_comm)

theorem VulnerabilityAnalysis.stable (H : DecimalsParse) : Stable v d (VulnerabilityAnalysis.readXml v) .analysis :=
  stable_struct (["state", "justification", "responses", "detail"] ++ since15 v ["firstIssued", "lastUpdated"] []) rfl
    (.append (.cons .string (by cases v <;> decide +kernel) (armHas (takes_map (takes_simple rfl) _) (stable_text rfl)) <|
      .cons .string (by cases v <;> decide +kernel) (armHas (takes_map (takes_simple rfl) _) (stable_text rfl)) <|
      .cons .responses (by cases v <;> decide +kernel) (armHas (takes_list (t' := .string) rfl (by cases v <;> rfl) (takes_map (takes_simple rfl) _)) (stable_list (t' := .string) rfl (by cases v <;> rfl) (takes_map (takes_simple rfl) _) (stable_text rfl))) <|
      .cons .string (by cases v <;> decide +kernel) (armHas (takes_simple rfl) (stable_text rfl)) <|
      .nil) <|
      .since15 <|
      .cons .string (by cases v <;> decide +kernel) (armHas (takes_simple rfl) (stable_text rfl)) <|
      .cons .string (by cases v <;> decide +kernel) (armHas (takes_simple rfl) (stable_text rfl)) <|
      .nil)
    (by cases v <;> rfl) (.inl rfl)
    (allComm_sub (by all_comm) ((List.Sublist.refl _).append since15_sublist))

theorem TargetVersion.stable (H : DecimalsParse) : Stable v d TargetVersion.readXml .affectedVersion :=
  stable_struct ["version", "range", "status"] rfl
    (.cons .string (by cases v <;> decide +kernel) (armHas (takes_simple rfl) (stable_text rfl)) <|
      .cons .string (by cases v <;> decide +kernel) (armHas (takes_simple rfl) (stable_text rfl)) <|
      .cons .string (by cases v <;> decide +kernel) (armHas (takes_map (takes_simple rfl) _) (stable_text rfl)) <|
      .nil)
    rfl (.inl rfl)
    (by all_comm)

theorem VulnerabilityTarget.stable (H : DecimalsParse) : Stable v d VulnerabilityTarget.readXml .target :=
  stable_struct ["ref", "versions"] rfl
    (.cons .string (by cases v <;> decide +kernel) (armHas (takes_simple rfl) (stable_text rfl)) <|
      .cons .versions (by cases v <;> decide +kernel) (armHas (takes_list (t' := .affectedVersion) rfl (by cases v <;> rfl) (TargetVersion.takes H)) (stable_list (t' := .affectedVersion) rfl (by cases v <;> rfl) (TargetVersion.takes H) (TargetVersion.stable H))) <|
      .nil)
    rfl (.inl rfl)
    (by all_comm)

theorem LicenseContact.stable (H : DecimalsParse) : Stable v d LicenseContact.readXml .licenseContact :=
  stable_struct ["organization", "individual"] rfl
    (.cons .organizationalEntity (by cases v <;> decide +kernel) (armHas (OrganizationalEntity.takes H) (OrganizationalEntity.stable H)) <|
      .cons .organizationalContact (by cases v <;> decide +kernel) (armHas (OrganizationalContact.takes H) (OrganizationalContact.stable H)) <|
      .nil)
    rfl (.inr (by cases v <;> decide +kernel))
    (by all_comm)

theorem Licensing.stable (H : DecimalsParse) : Stable v d Licensing.readXml .licensing :=
  stable_struct ["altIds", "licensor", "licensee", "purchaser", "purchaseOrder", "licenseTypes", "lastRenewal", "expiration"] rfl
    (.cons .altIds (by cases v <;> decide +kernel) (armHas (takes_list (t' := .string) rfl (by cases v <;> rfl) (takes_simple rfl)) (stable_list (t' := .string) rfl (by cases v <;> rfl) (takes_simple rfl) (stable_text rfl))) <|
      .cons .licenseContact (by cases v <;> decide +kernel) (armHas (LicenseContact.takes H) (LicenseContact.stable H)) <|
      .cons .licenseContact (by cases v <;> decide +kernel) (armHas (LicenseContact.takes H) (LicenseContact.stable H)) <|
      .cons .licenseContact (by cases v <;> decide +kernel) (armHas (LicenseContact.takes H) (LicenseContact.stable H)) <|
      .cons .string (by cases v <;> decide +kernel) (armHas (takes_simple rfl) (stable_text rfl)) <|
      .cons .licenseTypes (by cases v <;> decide +kernel) (armHas (takes_list (t' := .string) rfl (by cases v <;> rfl) (takes_map (takes_simple rfl) _)) (stable_list (t' := .string) rfl (by cases v <;> rfl) (takes_map (takes_simple rfl) _) (stable_text rfl))) <|
      .cons .string (by cases v <;> decide +kernel) (armHas (takes_simple rfl) (stable_text rfl)) <|
      .cons .string (by cases v <;> decide +kernel) (armHas (takes_simple rfl) (stable_text rfl)) <|
      .nil)
    rfl (.inr (by cases v <;> decide +kernel))
    (by all_comm)

theorem SpdxExpression.stable (H : DecimalsParse) : Stable v d SpdxExpression.readXml .expression := stable_text rfl

theorem VulnerabilityRating.stable (H : DecimalsParse) : Stable v d VulnerabilityRating.readXml .rating :=
  stable_struct ["source", "score", "severity", "method", "vector", "justification"] rfl
    (.cons .namedUrl (by cases v <;> decide +kernel) (armHas (VulnerabilitySource.takes H) (VulnerabilitySource.stable H)) <|
      .cons .decimal (by cases v <;> decide +kernel) (armHas (takes_score H rfl) (stable_text rfl)) <|
      .cons .string (by cases v <;> decide +kernel) (armHas (takes_map (takes_simple rfl) _) (stable_text rfl)) <|
      .cons .string (by cases v <;> decide +kernel) (armHas (takes_map (takes_simple rfl) _) (stable_text rfl)) <|
      .cons .string (by cases v <;> decide +kernel) (armHas (takes_simple rfl) (stable_text rfl)) <|
      .cons .string (by cases v <;> decide +kernel) (armHas (takes_simple rfl) (stable_text rfl)) <|
      .nil)
    rfl (.inl rfl)
    (by all_comm)

theorem Occurrence.stable (H : DecimalsParse) : Stable v d Occurrence.readXml .occurrence :=
  stable_struct ["location"] rfl
    (.cons .string (by cases v <;> decide +kernel) (armHas (takes_simple rfl) (stable_text rfl)) <|
      .nil)
    rfl (.inr (by cases v <;> decide +kernel))
    (by all_comm)

theorem Frame.stable (H : DecimalsParse) : Stable v d Frame.readXml .frame :=
  stable_struct ["package", "module", "function", "parameters", "line", "column", "fullFilename"] rfl
    (.cons .string (by cases v <;> decide +kernel) (armHas (takes_simple rfl) (stable_text rfl)) <|
      .cons .string (by cases v <;> decide +kernel) (armHas (takes_simple rfl) (stable_text rfl)) <|
      .cons .string (by cases v <;> decide +kernel) (armHas (takes_simple rfl) (stable_text rfl)) <|
      .cons .frameParameters (by cases v <;> decide +kernel) (armHas (takes_list (t' := .string) rfl (by cases v <;> rfl) (takes_simple rfl)) (stable_list (t' := .string) rfl (by cases v <;> rfl) (takes_simple rfl) (stable_text rfl))) <|
      .cons .integer (by cases v <;> decide +kernel) (armHas (takes_u32 rfl) (stable_text rfl)) <|
      .cons .integer (by cases v <;> decide +kernel) (armHas (takes_u32 rfl) (stable_text rfl)) <|
      .cons .string (by cases v <;> decide +kernel) (armHas (takes_simple rfl) (stable_text rfl)) <|
      .nil)
    rfl (.inr (by cases v <;> decide +kernel))
    (by all_comm)

theorem Method.stable (H : DecimalsParse) : Stable v d Method.readXml .method :=
  stable_struct ["technique", "confidence", "value"] rfl
    (.cons .string (by cases v <;> decide +kernel) (armHas (takes_simple rfl) (stable_text rfl)) <|
      .cons .decimal (by cases v <;> decide +kernel) (armHas (takes_f32 H rfl) (stable_text rfl)) <|
      .cons .string (by cases v <;> decide +kernel) (armHas (takes_simple rfl) (stable_text rfl)) <|
      .nil)
    rfl (.inr (by cases v <;> decide +kernel))
    (by all_comm)

theorem Attachment.stable (H : DecimalsParse) : Stable v d Attachment.readXml .attachment := stable_text rfl

theorem Swid.stable (H : DecimalsParse) : Stable v d Swid.readXml .swid :=
  stable_struct ["text", "url"] rfl
    (.cons .attachedText (by cases v <;> decide +kernel) (armHas (AttachedText.takes H) (stable_text rfl)) <|
      .cons .string (by cases v <;> decide +kernel) (armHas (takes_simple rfl) (stable_text rfl)) <|
      .nil)
    rfl (.inl rfl)
    (by all_comm)

theorem Lifecycle.stable : Stable v d Lifecycle.readXml .lifecycle :=
  stable_struct ["phase", "name", "description"] rfl
    (.cons .string (by cases v <;> decide +kernel) (armHas (takes_simple rfl) (stable_text rfl)) <|
      .cons .string (by cases v <;> decide +kernel) (armHas (takes_simple rfl) (stable_text rfl)) <|
      .cons .string (by cases v <;> decide +kernel) (armHas (takes_simple rfl) (stable_text rfl)) <|
      .nil)
    rfl (.inr (by cases v <;> decide +kernel))
    (by all_comm)

theorem License.stable (H : DecimalsParse) : Stable v d (License.readXml v) .license :=
  stable_struct (["id", "name", "text", "url"] ++ since15 v ["licensing", "properties"] []) rfl
    (.append (.cons .licenseId (by cases v <;> decide +kernel) (armHas_once (takes_inner rfl (by decide)) (stable_text rfl)) <|
      .cons .licenseName (by cases v <;> decide +kernel) (armHas_once (takes_inner rfl (by decide)) (stable_text rfl)) <|
      .cons .attachedText (by cases v <;> decide +kernel) (armHas (AttachedText.takes H) (stable_text rfl)) <|
      .cons .string (by cases v <;> decide +kernel) (armHas (takes_simple rfl) (stable_text rfl)) <|
      .nil) <|
      .since15 <|
      .cons .licensing (by cases v <;> decide +kernel) (armHas (Licensing.takes H) (Licensing.stable H)) <|
      .cons .properties (by cases v <;> decide +kernel) (armHas (takes_list (t' := .property) rfl (by cases v <;> rfl) (Property.takes H)) (stable_list (t' := .property) rfl (by cases v <;> rfl) (Property.takes H) (stable_text rfl))) <|
      .nil)
    (by cases v <;> rfl) (.inl rfl)
    (allComm_sub (by all_comm) ((List.Sublist.refl _).append since15_sublist))

theorem Licenses.stable (H : DecimalsParse) : Stable v d (Licenses.readXml v) .licenses :=
  stable_struct ["license", "expression"] rfl
    (.cons .license (by cases v <;> decide +kernel) (armHas (License.takes H) (License.stable H)) <|
      .cons .expression (by cases v <;> decide +kernel) (armHas (SpdxExpression.takes H) (stable_text rfl)) <|
      .nil)
    rfl (.inr (by cases v <;> decide +kernel))
    (by all_comm)

theorem stable_toolRefs : StableAs v d "tools" readToolRefs .toolRefs := by
  intro n attrs ns c c' _ hc _ he
  rw [Throughout] at hc
  exfalso
  have e1 : (ElementType.toolRefs.items v).map (·.1) = ["tool"] := by cases v <;> rfl
  have hone : ∀ x ∈ c, ∀ m, nameOf x = some m → m = "tool" := by
    intro x hx m hm
    have := hc.1.items x hx m hm
    rw [e1] at this
    simpa using this
  cases he with
  | @here _ before after m m' a a' s s' k k' hap =>
    have g1 := hone _ (List.mem_append_right _ (.head _)) _ rfl
    have g2 := hone _ (List.mem_append_right _ (.tail _ (.head _))) _ rfl
    rw [g1, g2] at hap
    have : ((ElementType.toolRefs.choices v).flatten.any fun p => (p.items.map (·.1)).contains "tool") = true := by
      cases v <;> decide +kernel
    obtain ⟨p, hp, hc⟩ := List.any_eq_true.mp this
    exact hap p hp ⟨List.contains_iff_mem.mp hc, List.contains_iff_mem.mp hc⟩
  | @inside _ before after m a s k k' t1 ht1 hex =>
    have hm := List.mem_append_right before (List.Mem.head (a := XNode.elem m a s k) after)
    have g1 := hone _ hm _ rfl
    have hk : ElementType.toolRefs.child v "tool" = some .reference := by cases v <;> decide +kernel
    rw [g1, hk] at ht1
    cases ht1
    have h2 := throughoutAll_mem hc.2 _ hm m.localName rfl .reference (by rw [g1]; exact hk)
    rw [Throughout] at h2
    rw [empty_content rfl h2.1] at hex
    exact nil_no_exchange hex

theorem Callstack.stable (H : DecimalsParse) : StableAs v d "callstack" Callstack.readXml .callstack := by
  have hs : StableAs v (d + 1) "callstack" Callstack.readXml .callstack := by
    refine stable_of_children (fam := fun _ _ => True) rfl ?_ ?_
    · intro el attrs content hel hok n attrs' ns c hm t' ht' hc hd
      have hn := hok.items _ hm _ rfl
      have e1 : (ElementType.callstack.items v).map (·.1) = ["frames"] := by cases v <;> rfl
      rw [e1, List.mem_singleton] at hn
      have hk : ElementType.callstack.child v "frames" = some .frames := by cases v <;> decide +kernel
      rw [hn, hk] at ht'
      cases ht'
      have hne : n ≠ el := fun e => by rw [e, hel] at hn; exact absurd hn (by decide)
      have hlook : Callstack.arms.lookup n.localName = none := by rw [hn]; rfl
      have hch : Children v d .frames .ignore el Callstack.arms (famOf [("frame", stores fun (x : Frame) (l : List Frame) => l ++ [x])]) c := by
        have hok' : OkAt v .frames attrs' c := by rw [Throughout] at hc; exact hc.1
        intro m a s k hm' t2 ht2 hc2 hd2
        have hn2 := hok'.items _ hm' _ rfl
        have e2 : (ElementType.frames.items v).map (·.1) = ["frame"] := by cases v <;> rfl
        rw [e2, List.mem_singleton] at hn2
        have hk2 : ElementType.frames.child v "frame" = some .frame := by cases v <;> decide +kernel
        rw [hn2, hk2] at ht2
        cases ht2
        have ha : ArmHas v d "frame" (arm Frame.readXml fun x l => l ++ [x]) .frame
            (stores fun (x : Frame) (l : List Frame) => l ++ [x]) := armHas (Frame.takes H) (Frame.stable H)
        obtain ⟨e, f, g1, g2⟩ := ha m a s k hn2 hc2 hd2
        have hlook2 : Callstack.arms.lookup m.localName = some (arm Frame.readXml fun x l => l ++ [x]) := by
          rw [hn2]; rfl
        exact ⟨e, by rw [hn2]; exact f, effect_arm hlook2 g1, fun c' hex => effect_arm hlook2 (g2 c' hex)⟩
      have hwrap : ∀ {k e}, Effect .ignore el Callstack.arms k e →
          Effect .ignore el Callstack.arms [.elem n attrs' ns k] e := by
        intro k e he st
        have := he st
        cases hst : e st with
        | none =>
          rw [hst] at this
          intro rest
          obtain ⟨err, h⟩ := this (.stop n :: rest)
          exact ⟨err, by rw [XNode.eventsAll, XNode.eventsAll, List.append_nil, elem_events, ignore_start hlook]; exact h⟩
        | some st' =>
          rw [hst] at this
          intro rest
          rw [XNode.eventsAll, XNode.eventsAll, List.append_nil, elem_events, ignore_start hlook, this, ignore_stop hne]
      obtain ⟨⟨e, h1⟩, h2⟩ := content_effect rfl hc (Nat.le_of_lt hd) hch (famOf_comm (allComm_cons oneComm_nil allComm_nil))
      refine ⟨e, trivial, hwrap h1, fun c' hex => ?_⟩
      obtain ⟨e', g1, g2⟩ := h2 c' hex
      have : e = e' := by
        funext st
        have a1 := h1 st
        have a2 := g1 st
        cases q1 : e st with
        | none =>
          cases q2 : e' st with
          | none => rfl
          | some s2 =>
            rw [q1] at a1
            rw [q2] at a2
            obtain ⟨err, a1⟩ := a1 [.stop el]
            rw [a2, readFields_stop] at a1
            cases a1
        | some s1 =>
          cases q2 : e' st with
          | none =>
            rw [q1] at a1
            rw [q2] at a2
            obtain ⟨err, a2⟩ := a2 [.stop el]
            rw [a1, readFields_stop] at a2
            cases a2
          | some s2 =>
            rw [q1] at a1
            rw [q2] at a2
            have := (a1 [.stop el]).symm.trans (a2 [.stop el])
            rw [readFields_stop, readFields_stop] at this
            cases this
            rfl
      rw [this]
      exact hwrap g2
    · intro a b hn
      have : ∀ x, needs v .callstack a x = true → a = "frames" ∧ x = "frames" := by
        intro x hx
        simp only [needs, Bool.and_eq_true] at hx
        obtain ⟨l, hl, hm⟩ := List.any_eq_true.mp hx.1
        simp only [Bool.and_eq_true, List.contains_iff_mem] at hm
        have e : (ElementType.callstack.items v).map (·.1) = ["frames"] := by cases v <;> rfl
        have sub : ∀ y, y ∈ (l.flatMap (·.items)).map (·.1) → y = "frames" := by
          intro y hy
          have : y ∈ (ElementType.callstack.items v).map (·.1) := by
            obtain ⟨q, hq, rfl⟩ := List.mem_map.mp hy
            obtain ⟨p, hp, hq⟩ := List.mem_flatMap.mp hq
            exact List.mem_map_of_mem (List.mem_flatMap.mpr ⟨p, List.mem_flatten.mpr ⟨l, hl, hp⟩, hq⟩)
          rw [e] at this
          simpa using this
        exact ⟨sub _ hm.1, sub _ hm.2⟩
      obtain ⟨rfl, rfl⟩ := this b hn
      rw [needs_self] at hn
      exact absurd hn (by simp)
  exact fun n attrs ns c c' hn hc hd => hs n attrs ns c c' hn hc (by omega)

theorem Identity.stable (H : DecimalsParse) : Stable v d Identity.readXml .identity :=
  stable_struct ["field", "confidence", "methods", "tools"] rfl
    (.cons .string (by cases v <;> decide +kernel) (armHas (takes_map (takes_simple rfl) _) (stable_text rfl)) <|
      .cons .decimal (by cases v <;> decide +kernel) (armHas (takes_f32 H rfl) (stable_text rfl)) <|
      .cons .methods (by cases v <;> decide +kernel) (armHas (takes_list (t' := .method) rfl (by cases v <;> rfl) (Method.takes H)) (stable_list (t' := .method) rfl (by cases v <;> rfl) (Method.takes H) (Method.stable H))) <|
      .cons .toolRefs (by cases v <;> decide +kernel) (armHas_as (takes_toolRefs) (stable_toolRefs)) <|
      .nil)
    rfl (.inr (by cases v <;> decide +kernel))
    (by all_comm)

theorem ComponentEvidence.stable (H : DecimalsParse) : Stable v d (ComponentEvidence.readXml v) .evidence :=
  stable_struct (["licenses", "copyright"] ++ since15 v ["occurrences", "callstack", "identity"] []) rfl
    (.append (.cons .licenses (by cases v <;> decide +kernel) (armHas (Licenses.takes H) (Licenses.stable H)) <|
      .cons .copyrights (by cases v <;> decide +kernel) (armHas (takes_list (t' := .string) rfl (by cases v <;> rfl) (takes_simple rfl)) (stable_list (t' := .string) rfl (by cases v <;> rfl) (takes_simple rfl) (stable_text rfl))) <|
      .nil) <|
      .since15 <|
      .cons .occurrences (by cases v <;> decide +kernel) (armHas (takes_list (t' := .occurrence) rfl (by cases v <;> rfl) (Occurrence.takes H)) (stable_list (t' := .occurrence) rfl (by cases v <;> rfl) (Occurrence.takes H) (Occurrence.stable H))) <|
      .cons .callstack (by cases v <;> decide +kernel) (armHas_as (Callstack.takes H) (Callstack.stable H)) <|
      .cons .identity (by cases v <;> decide +kernel) (armHas (Identity.takes H) (Identity.stable H)) <|
      .nil)
    (by cases v <;> rfl) (.inr (by cases v <;> decide +kernel))
    (allComm_sub (by all_comm) ((List.Sublist.refl _).append since15_sublist))

end Cdx.Exchange
