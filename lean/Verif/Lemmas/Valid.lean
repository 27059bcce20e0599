import Verif.Props.Graph
import Verif.Props.Formats
import Verif.Props.Elements
import Verif.Lemmas.Targets
import Verif.Lemmas.Files
import Verif.Spec.Valid

/-!
# Generated SBOMs pass validation: lemmas
-/

namespace Cdx

open Spec

set_option linter.unusedSimpArgs false
set_option linter.unusedVariables false

/-- A component passes if its checked parts do. -/
theorem passes_of_checked {E : VEnv} {v : SpecVersion} {e : Elem} (hr : e.rule E v)
    (h : ∀ p ∈ e.checked, p.Passes E v) : e.Passes E v := (Elem.passes_iff E v e).mpr ⟨hr, h⟩

section
variable {env : Env} {E : VEnv} (ag : Agree env E) (v : SpecVersion)

theorem ns_passes (E : VEnv) (v : SpecVersion) (s : String) :
    (Elem.normalizedString (normalizedString s)).Passes E v :=
  (passes_normalizedString E v _).mpr (Props.C30_validates s)

include ag in
theorem license_passes {config : SbomConfig} {p : Package} {l : Licenses}
    (h : getLicenses env config p = some l) : (Elem.licenses l).Passes E v := by
  have hname : ∀ s, (Elem.licenseIdentifier (.name (normalizedString s))).Passes E v := by
    intro s
    refine passes_of_checked trivial ?_
    show ∀ p ∈ [Elem.normalizedString (normalizedString s)], p.Passes E v
    simp only [List.mem_singleton, forall_eq]
    exact ns_passes E v s
  have hlic : ∀ x : License, (∃ s, x.licenseIdentifier = .name (normalizedString s)) →
      x.url = none → x.licensing = none → x.properties = none →
      (∀ t, x.text = some t → ∃ b, t = attachedText none b) →
      (Elem.licenseChoice (.license x)).Passes E v := by
    intro x ⟨s, h1⟩ h2 h3 h4 h5
    refine passes_of_checked trivial ?_
    show ∀ p ∈ [Elem.license x], p.Passes E v
    simp only [List.mem_singleton, forall_eq]
    refine passes_of_checked trivial ?_
    rw [checked_license, h1, h2, h3, h4]
    simp only [List.forall_mem_append, forall_opt, forall_many, List.mem_singleton, forall_eq]
    refine ⟨⟨⟨⟨hname s, ?_⟩, ?_⟩, ?_⟩, ?_⟩
    · intro t ht
      obtain ⟨b, rfl⟩ := h5 t ht
      rw [passes_attachedText]
      exact (Props.C45_attached_text E v none b).2.2.2.2.mpr (by simp)
    all_goals simp
  unfold getLicenses at h
  have key : ∀ c : LicenseChoice, (Elem.licenseChoice c).Passes E v →
      (Elem.licenses [c]).Passes E v := by
    intro c hc
    refine passes_of_checked ((rule_licenses E v _).mpr fun _ => .inr (by simp)) ?_
    show ∀ p ∈ [Elem.licenseChoice c], p.Passes E v
    simpa using hc
  cases hl : p.license with
  | some s =>
    simp only [hl, List.isEmpty_cons, Bool.false_eq_true, if_false, Option.some.injEq] at h
    subst h
    apply key
    unfold licenseOfString
    have hexp : ∀ t e, SpdxExpression.tryFrom env t = some e →
        (Elem.licenseChoice (.expression e)).Passes E v := by
      intro t e he
      simp only [SpdxExpression.tryFrom, Option.ite_none_right_eq_some, Option.some.injEq] at he
      obtain ⟨h1, rfl⟩ := he
      refine passes_of_checked trivial ?_
      show ∀ p ∈ [Elem.spdxExpression _], p.Passes E v
      simp only [List.mem_singleton, forall_eq]
      rw [passes_spdxExpression]
      simp [validateSpdxExpression, Check.require, ag.spdx, h1]
    have hnone : (Elem.licenseChoice (.license (License.named s))).Passes E v :=
      hlic _ ⟨s, rfl⟩ rfl rfl rfl (by intro t ht; cases ht)
    have hlax : ∀ e, SpdxExpression.parseLax env s = some e →
        (Elem.licenseChoice (.expression e)).Passes E v := by
      intro e he
      unfold SpdxExpression.parseLax at he
      split at he
      · exact hexp _ e he
      · cases he
    dsimp only
    split
    · rename_i e he
      split at he
      all_goals first | exact hexp _ _ he | exact hlax _ he
    · exact hnone
  | none =>
    simp only [hl, List.isEmpty_nil, if_true] at h
    cases hf : p.licenseFile with
    | none => simp [hf] at h
    | some f =>
      simp only [hf] at h
      cases hc : env.readFile f with
      | none => simp [hc] at h
      | some content =>
        simp only [hc, List.nil_append, List.isEmpty_cons, Bool.false_eq_true, if_false,
          Option.some.injEq] at h
        subst h
        apply key
        exact hlic _ ⟨"Unknown", rfl⟩ rfl rfl rfl
          (by intro t ht; exact ⟨_, (Option.some.inj ht).symm⟩)

theorem foldl_pushReference (fs : List (ExternalReferenceType × Option String))
    (acc : List ExternalReference) (r : ExternalReference)
    (h : r ∈ fs.foldl (pushReference env) acc) :
    r ∈ acc ∨ ∃ f ∈ fs, ∃ u, f.2 = some u ∧ env.uriValid u = true ∧
      r = ExternalReference.new f.1 u := by
  induction fs generalizing acc with
  | nil => exact .inl h
  | cons f fs ih =>
    rcases ih _ h with h | ⟨g, hg, h⟩
    · unfold pushReference at h
      split at h
      · rename_i u hu
        split at h
        · rename_i hv
          rcases List.mem_append.mp h with h | h
          · exact .inl h
          · exact .inr ⟨f, List.mem_cons_self, u, hu, hv, by simpa using h⟩
        · exact .inl h
      · exact .inl h
    · exact .inr ⟨g, List.mem_cons_of_mem _ hg, h⟩

include ag in
theorem reference_passes {p : Package}
    (hl : LinksOk env v p)
    {refs : ExternalReferences} (h : getExternalReferences env p = some refs) :
    ∀ r ∈ refs, (Elem.externalReference r).Passes E v := by
  intro r hr
  unfold getExternalReferences at h
  simp only at h
  split at h
  · cases h
  · simp only [Option.some.injEq] at h
    subst h
    rcases foldl_pushReference _ _ _ hr with h | ⟨f, hf, u, hu, hv, rfl⟩
    · cases h
    · have hm : some u ∈ urlFields p := by
        simp only [referenceFields, List.mem_cons, List.not_mem_nil, or_false] at hf
        simp only [urlFields, List.mem_cons, List.not_mem_nil, or_false]
        rcases hf with rfl | rfl | rfl | rfl <;> simp_all
      have hc := hl u hm hv
      refine passes_of_checked trivial ?_
      rw [checked_externalReference]
      simp only [List.forall_mem_append, forall_many, List.mem_singleton, forall_eq]
      refine ⟨⟨?_, ?_⟩, ?_⟩
      · rw [passes_externalReferenceType]
        simp only [referenceFields, List.mem_cons, List.not_mem_nil, or_false] at hf
        rcases hf with rfl | rfl | rfl | rfl <;> rfl
      · rw [passes_refUri]
        show validateReferenceUri E v (RefUri.ofUrl u) = .ok ()
        cases hb : startsWith u "urn:cdx" with
        | false => simp [RefUri.ofUrl, hb, validateReferenceUri, validateUri, Check.require, ag.uri, hv]
        | true =>
          have e : RefUri.ofUrl u = .bomLink u := by simp [RefUri.ofUrl, hb]
          rw [e, Props.C47_validates]
          exact hc (startsWith_iff.mp hb)
      · intro l hl'; cases hl'

theorem foldl_pushReference_mem (fs : List (ExternalReferenceType × Option String))
    (acc : List ExternalReference) (r : ExternalReference)
    (h : r ∈ acc ∨ ∃ f ∈ fs, ∃ u, f.2 = some u ∧ env.uriValid u = true ∧
      r = ExternalReference.new f.1 u) : r ∈ fs.foldl (pushReference env) acc := by
  induction fs generalizing acc with
  | nil =>
    rcases h with h | ⟨f, hf, _⟩
    · exact h
    · cases hf
  | cons f fs ih =>
    refine ih _ ?_
    rcases h with h | ⟨g, hg, u, hu, hv, rfl⟩
    · left
      unfold pushReference
      split
      · split
        · exact List.mem_append_left _ h
        · exact h
      · exact h
    · rcases List.mem_cons.mp hg with rfl | hg
      · left
        unfold pushReference
        rw [hu]
        simp [hv]
      · exact .inr ⟨g, hg, u, hu, hv, rfl⟩

/-- If all references to the URLs of a package pass, its URLs are as they should be. -/
theorem links_of_passes {p : Package} (h : ∀ refs, getExternalReferences env p = some refs →
      ∀ r ∈ refs, (Elem.externalReference r).Passes E v) : LinksOk env v p := by
  intro u hu hv hl
  obtain ⟨t, ht⟩ : ∃ t, (t, some u) ∈ referenceFields p := by
    simp only [urlFields, List.mem_cons, List.not_mem_nil, or_false] at hu
    simp only [referenceFields, List.mem_cons, List.not_mem_nil, or_false, Prod.mk.injEq]
    rcases hu with hu | hu | hu | hu
    · exact ⟨_, .inl ⟨rfl, hu⟩⟩
    · exact ⟨_, .inr (.inl ⟨rfl, hu⟩)⟩
    · exact ⟨_, .inr (.inr (.inl ⟨rfl, hu⟩))⟩
    · exact ⟨_, .inr (.inr (.inr ⟨rfl, hu⟩))⟩
  have hm := foldl_pushReference_mem (env := env) (referenceFields p) [] (ExternalReference.new t u)
    (.inr ⟨_, ht, u, rfl, hv, rfl⟩)
  have he : getExternalReferences env p = some ((referenceFields p).foldl (pushReference env) []) := by
    unfold getExternalReferences
    simp only
    split
    · rename_i hn
      rw [List.isEmpty_iff.mp hn] at hm
      cases hm
    · rfl
  have hp := ((Elem.passes_iff E v _).mp (h _ he _ hm)).2 (.refUri (RefUri.ofUrl u)) (by
    rw [checked_externalReference]
    simp [ExternalReference.new])
  rw [passes_refUri] at hp
  have e : RefUri.ofUrl u = .bomLink u := by simp [RefUri.ofUrl, startsWith_iff.mpr hl]
  rw [e, Props.C47_validates] at hp
  exact hp

theorem hash_passes (h : Vector UInt8 32) : (Elem.hash (toBomHash h)).Passes E v := by
  refine passes_of_checked trivial ?_
  rw [checked_hash]
  simp only [List.forall_mem_append, List.mem_singleton, forall_eq]
  refine ⟨?_, ?_⟩
  · rw [passes_hashAlgorithm]; rfl
  · rw [passes_hashValue]
    refine (Props.C32_hash_partial _).1.mpr (.inl ?_)
    obtain ⟨h1, h2⟩ := hexBytes_exactly h.toList
    refine ⟨(hexBytes h.toList).take 32, (hexBytes h.toList).drop 32, ⟨?_, ?_⟩, ?_⟩
    · rw [List.length_take, h1]; simp
    · intro c hc
      have := h2 c (List.mem_of_mem_take hc)
      unfold Hex; unfold LowerHex at this
      have e : "0123456789abcdefABCDEF".toList = "0123456789abcdef".toList ++ "ABCDEF".toList := by
        decide
      rw [e]
      exact List.mem_append_left _ this
    · simp [toBomHash]

include ag in
theorem purl_passes (hp : ∀ n w q s p, env.purlRender n w q s = some p → env.purlValid p = true)
    {p r : Package} {ws : FPath} {sub : Option (List String)} {u : Purl}
    (h : getPurl env p r ws sub = .ok (some u)) : (Elem.purl u).Passes E v := by
  rw [passes_purl]
  unfold getPurl at h
  simp only [Res.bind_ok] at h
  obtain ⟨qs, _, h⟩ := h
  split at h
  · cases h
  · rename_i q hq
    split at h
    · cases h
    · simp only [Except.ok.injEq, Option.some.injEq] at h
      subst h
      have := (ag.purl q).mpr (hp _ _ _ _ _ hq)
      simp [validatePurl, this]

/-- What is common to the components of generated SBOMs. -/
structure PlainComponent (env : Env) (E : VEnv) (v : SpecVersion) (c : Component) : Prop where
  typ : (Elem.classification c.componentType).Passes E v
  mime : c.mimeType = none
  supplier : c.supplier = none
  author : ∀ a, c.author = some a → (Elem.normalizedString a).Passes E v
  publisher : c.publisher = none
  group : c.group = none
  name : (Elem.normalizedString c.name).Passes E v
  version : ∀ a, c.version = some a → (Elem.normalizedString a).Passes E v
  description : ∀ a, c.description = some a → (Elem.normalizedString a).Passes E v
  scope : ∀ s, c.scope = some s → (Elem.scope s).Passes E v
  hashes : ∀ l, c.hashes = some l → ∀ h ∈ l, (Elem.hash h).Passes E v
  licenses : ∀ l, c.licenses = some l → (Elem.licenses l).Passes E v
  copyright : c.copyright = none
  cpe : c.cpe = none
  purl : ∀ p, c.purl = some p → (Elem.purl p).Passes E v
  swid : c.swid = none
  pedigree : c.pedigree = none
  refs : ∀ l, c.externalReferences = some l → ∀ r ∈ l, (Elem.externalReference r).Passes E v
  properties : c.properties = none
  evidence : c.evidence = none

theorem PlainComponent.passes {c : Component} (h : PlainComponent env E v c)
    (hs : ∀ l, c.components = some l → ∀ s ∈ l, (Elem.component s).Passes E v) :
    (Elem.component c).Passes E v := by
  refine passes_of_checked trivial ?_
  rw [checked_component, h.mime, h.supplier, h.publisher, h.group, h.copyright, h.cpe, h.swid,
    h.pedigree, h.properties, h.evidence]
  simp only [List.forall_mem_append, forall_opt, forall_many, List.mem_singleton, forall_eq,
    reduceCtorEq, false_implies, implies_true, and_true]
  exact ⟨⟨⟨⟨⟨⟨⟨⟨⟨⟨h.typ, h.author⟩, h.name⟩, h.version⟩, h.description⟩, h.scope⟩, h.hashes⟩,
    h.licenses⟩, h.purl⟩, h.refs⟩, hs⟩

theorem application_passes : (Elem.classification .application).Passes E v := by
  rw [passes_classification]; cases v <;> decide

theorem library_passes : (Elem.classification .library).Passes E v := by
  rw [passes_classification]; cases v <;> decide

include ag in
theorem createComponent_plain
    (hp : ∀ n w q s p, env.purlRender n w q s = some p → env.purlValid p = true)
    {g : SbomGenerator} {p r : Package} {kinds : DependencyKindMap} {c : Component}
    (hl : LinksOk env v p)
    (h : createComponent env g p r kinds = .ok c) :
    PlainComponent env E v c ∧ c.components = none ∧ c.bomRef = some p.id := by
  obtain ⟨purl, h1, rfl⟩ := createComponent_ok h
  refine ⟨?_, rfl, rfl⟩
  constructor
  case typ => exact library_passes v
  case author =>
    intro a ha
    dsimp only at ha
    split at ha
    · cases ha
    · cases ha; exact ns_passes E v _
  case name => exact ns_passes E v _
  case version => intro a ha; cases ha; exact ns_passes E v _
  case description =>
    intro a ha
    dsimp only at ha
    cases hd : p.description with
    | none => simp [hd] at ha
    | some d => simp only [hd, Option.map_some, Option.some.injEq] at ha; subst ha; exact ns_passes E v _
  case scope =>
    intro s hs
    dsimp only at hs
    cases hs
    rw [passes_scope]
    unfold componentScope
    split <;> rfl
  case hashes =>
    intro l hl' x hx
    dsimp only at hl'
    unfold getHashes at hl'
    split at hl'
    · cases hl'; simp only [List.mem_singleton] at hx; subst hx; exact hash_passes v _
    · cases hl'
  case licenses => intro l hl'; exact license_passes ag v hl'
  case purl => intro u hu; dsimp only at hu; subst hu; exact purl_passes ag v hp h1
  case refs => intro l hl'; exact reference_passes ag v hl hl'
  all_goals rfl

include ag in
theorem createSubcomponent_plain
    (hp : ∀ n w q s p, env.purlRender n w q s = some p → env.purlValid p = true)
    {g : SbomGenerator} {p : Package} {t : Target} {ty : Classification} {ref : String}
    (hty : (Elem.classification ty).Passes E v) {c : Component}
    (h : createSubcomponent env g p t ty ref = .ok c) :
    PlainComponent env E v c ∧ c.components = none ∧ c.bomRef = some ref := by
  have base : ∀ purl : Option Purl, (∀ q, purl = some q → (Elem.purl q).Passes E v) →
      PlainComponent env E v { Component.new ty t.name p.version (some ref) with purl := purl } := by
    intro purl hq
    constructor
    case typ => exact hty
    case name => exact ns_passes E v _
    case version => intro a ha; cases ha; exact ns_passes E v _
    case purl => exact hq
    all_goals first | rfl | (intro a ha; cases ha)
  unfold createSubcomponent at h
  simp only at h
  split at h
  · cases h
  · split at h
    · simp only [Res.bind_ok] at h
      obtain ⟨purl, h1, h2⟩ := h
      cases h2
      exact ⟨base purl (fun q hq => by subst hq; exact purl_passes ag v hp h1), rfl, rfl⟩
    · cases h
      exact ⟨base none (by simp), rfl, rfl⟩

theorem targetType_passes {t : Target} {ty : Classification} (h : targetType t = some ty) :
    (Elem.classification ty).Passes E v := by
  unfold targetType at h
  repeat' split at h
  all_goals first
    | (cases h; exact application_passes v)
    | (cases h; exact library_passes v)
    | cases h

include ag in
theorem targetLoop_passes
    (hp : ∀ n w q s p, env.purlRender n w q s = some p → env.purlValid p = true)
    {g : SbomGenerator} {p : Package} {ref : String} {ts : List Target}
    {subs : List Component} {kinds : TargetKinds} {r : List Component × TargetKinds}
    (hs : ∀ c ∈ subs, PlainComponent env E v c ∧ c.components = none)
    (h : targetLoop env g p ref ts subs kinds = .ok r) :
    ∀ c ∈ r.1, PlainComponent env E v c ∧ c.components = none := by
  induction ts generalizing subs kinds with
  | nil => simp only [targetLoop, Except.ok.injEq] at h; subst h; exact hs
  | cons t ts ih =>
    unfold targetLoop at h
    split at h
    · exact ih hs h
    · rename_i ty hty
      simp only [Res.bind_ok] at h
      obtain ⟨sub, h1, h2⟩ := h
      refine ih ?_ h2
      intro c hc
      rcases List.mem_append.mp hc with hc | hc
      · exact hs c hc
      · simp only [List.mem_singleton] at hc
        subst hc
        have := createSubcomponent_plain ag v hp (targetType_passes v hty) h1
        exact ⟨this.1, this.2.1⟩

/-- A component with another type is as plain as before. -/
theorem PlainComponent.retype {c : Component} (h : PlainComponent env E v c) {ty : Classification}
    (hty : (Elem.classification ty).Passes E v) (cs : Option (List Component)) :
    PlainComponent env E v { c with componentType := ty, components := cs } where
  typ := hty
  mime := h.mime
  supplier := h.supplier
  author := h.author
  publisher := h.publisher
  group := h.group
  name := h.name
  version := h.version
  description := h.description
  scope := h.scope
  hashes := h.hashes
  licenses := h.licenses
  copyright := h.copyright
  cpe := h.cpe
  purl := h.purl
  swid := h.swid
  pedigree := h.pedigree
  refs := h.refs
  properties := h.properties
  evidence := h.evidence

/-- The component of a per-artifact SBOM. -/
theorem PlainComponent.artifact {c a : Component} (h : PlainComponent env E v c)
    (ha : PlainComponent env E v a) :
    PlainComponent env E v { c with name := a.name, componentType := a.componentType,
                                    purl := a.purl, components := none } where
  typ := ha.typ
  mime := h.mime
  supplier := h.supplier
  author := h.author
  publisher := h.publisher
  group := h.group
  name := ha.name
  version := h.version
  description := h.description
  scope := h.scope
  hashes := h.hashes
  licenses := h.licenses
  copyright := h.copyright
  cpe := h.cpe
  purl := ha.purl
  swid := h.swid
  pedigree := h.pedigree
  refs := h.refs
  properties := h.properties
  evidence := h.evidence

theorem contact_passes (n : String) (e : Option String) :
    (Elem.organizationalContact (OrganizationalContact.new n e)).Passes E v := by
  refine passes_of_checked trivial ?_
  rw [checked_organizationalContact]
  simp only [List.forall_mem_append, forall_opt, OrganizationalContact.new]
  refine ⟨⟨⟨by simp, ?_⟩, ?_⟩, by simp⟩
  · intro y hy; cases hy; exact ns_passes E v _
  · intro y hy
    cases e with
    | none => cases hy
    | some e => cases hy; exact ns_passes E v _

theorem parseAuthor_passes {a : String} {c : OrganizationalContact} (h : parseAuthor env a = some c) :
    (Elem.organizationalContact c).Passes E v := by
  unfold parseAuthor at h
  repeat' split at h
  all_goals first
    | (cases h; done)
    | (simp only [Option.some.injEq] at h; subst h; exact contact_passes v _ _)
    | (dsimp only at h; split at h
       · simp only [Option.some.injEq] at h; subst h; exact contact_passes v _ _
       · cases h)

include ag in
theorem timestamp_passes (hn : ∀ d, env.now = some d → env.dateTimeValid d = true) {d : DateTime}
    (h : metadataTimestamp env = .ok d) : (Elem.dateTime d).Passes E v := by
  rw [passes_dateTime]
  have key : env.dateTimeValid d = true := by
    unfold metadataTimestamp at h
    repeat' split at h
    all_goals first
      | (cases h; done)
      | (simp only [Except.ok.injEq] at h; subst h; first | exact hn _ ‹_› | assumption)
  simp [validateDateTime, Check.require, ag.dateTime, key]

theorem tool_passes (a b c : String) : (Elem.tools (.list [Tool.new a b c])).Passes E v := by
  refine passes_of_checked ((rule_tools E v _).mpr (.inr ⟨_, rfl⟩)) ?_
  show ∀ p ∈ [Elem.tool (Tool.new a b c)], p.Passes E v
  simp only [List.mem_singleton, forall_eq]
  refine passes_of_checked trivial ?_
  rw [checked_tool]
  simp only [List.forall_mem_append, forall_opt, forall_many, Tool.new]
  refine ⟨⟨⟨⟨?_, ?_⟩, ?_⟩, by simp⟩, by simp⟩ <;> (intro y hy; cases hy; exact ns_passes E v _)

theorem property_passes (a b : String) : (Elem.property (Property.new a b)).Passes E v := by
  refine passes_of_checked trivial ?_
  rw [checked_property]
  simp only [List.mem_singleton, forall_eq]
  exact ns_passes E v _

/-- The metadata of generated SBOMs, apart from its component. -/
structure PlainMetadata (E : VEnv) (v : SpecVersion) (m : Metadata) : Prop where
  timestamp : ∀ d, m.timestamp = some d → (Elem.dateTime d).Passes E v
  tools : ∀ t, m.tools = some t → (Elem.tools t).Passes E v
  authors : ∀ l, m.authors = some l → ∀ a ∈ l, (Elem.organizationalContact a).Passes E v
  manufacture : m.manufacture = none
  supplier : m.supplier = none
  licenses : m.licenses = none
  properties : ∀ l, m.properties = some l → ∀ p ∈ l, (Elem.property p).Passes E v

theorem PlainMetadata.passes {m : Metadata} (h : PlainMetadata E v m)
    (hc : ∀ c, m.component = some c → (Elem.component c).Passes E v) :
    (Elem.metadata m).Passes E v := by
  refine passes_of_checked trivial ?_
  rw [checked_metadata, h.manufacture, h.supplier, h.licenses]
  simp only [List.forall_mem_append, forall_opt, forall_many, reduceCtorEq, false_implies,
    implies_true, and_true]
  exact ⟨⟨⟨⟨h.timestamp, h.tools⟩, h.authors⟩, hc⟩, h.properties⟩

include ag in
theorem createMetadata_plain
    (hp : ∀ n w q s p, env.purlRender n w q s = some p → env.purlValid p = true)
    (hn : ∀ d, env.now = some d → env.dateTimeValid d = true)
    {g : SbomGenerator} {p : Package} {r : Metadata × TargetKinds}
    (hl : LinksOk env v p)
    (h : createMetadata env g p = .ok r) :
    PlainMetadata E v r.1 ∧ ∃ top subs, r.1.component = some top ∧ PlainComponent env E v top ∧
      top.components = some subs ∧ top.bomRef = some p.id ∧
      ∀ c ∈ subs, PlainComponent env E v c ∧ c.components = none := by
  obtain ⟨ts, top, props, h1, h2, h3, h4⟩ := createMetadata_ok h
  obtain ⟨top', subs, h5, h6, h7⟩ := createToplevel_ok h2
  rw [h4]
  refine ⟨?_, top, subs, rfl, ?_, ?_, ?_, ?_⟩
  · constructor
    case timestamp => intro d hd; cases hd; exact timestamp_passes ag v hn h1
    case tools => intro t ht; cases ht; exact tool_passes v _ _ _
    case authors =>
      intro l hl' a ha
      dsimp only at hl'
      split at hl'
      · cases hl'
      · cases hl'
        unfold createAuthors at ha
        obtain ⟨x, _, hx⟩ := List.mem_filterMap.mp ha
        exact parseAuthor_passes v hx
    case properties =>
      intro l hl' q hq
      dsimp only at hl'
      cases hl'
      unfold targetProperties at h3
      split at h3
      · cases h3
      all_goals
        simp only [Except.ok.injEq] at h3
        subst h3
        simp only [List.mem_singleton] at hq
        subst hq
        exact property_passes v _ _
    all_goals rfl
  · obtain ⟨hpl, _, _⟩ := createComponent_plain ag v hp hl h5
    dsimp only at h7
    rw [h7]
    refine hpl.retype v ?_ _
    unfold getClassification
    split
    · exact application_passes v
    · exact library_passes v
  · dsimp only at h7; rw [h7]
  · obtain ⟨_, _, hb⟩ := createComponent_plain ag v hp hl h5
    dsimp only at h7; rw [h7]; exact hb
  · exact targetLoop_passes ag v hp (by simp) h6

end

/-! ## References of a generated SBOM -/

theorem refsList_flat {cs : List Component} (h : ∀ c ∈ cs, c.components = none) :
    (Component.refsList cs).map some = (cs.map (·.bomRef)).filter (·.isSome) := by
  induction cs with
  | nil => rfl
  | cons c cs ih =>
    have hc := h c List.mem_cons_self
    have : Component.refs c = c.bomRef.toList ++ Component.refsOption c.components := by
      cases c; rfl
    rw [Component.refsList, this, hc]
    simp only [Component.refsOption, List.append_nil, List.map_append, List.map_cons,
      ih (fun x hx => h x (List.mem_cons_of_mem _ hx))]
    cases c.bomRef <;> simp

theorem startsWith_false_iff {u p : String} :
    startsWith u p = false ↔ ∀ r, u.toList ≠ p.toList ++ r := by
  rw [← Bool.not_eq_true, startsWith, Option.isSome_iff_exists]
  simp only [stripPrefixChars_iff, not_exists, ne_eq]

/-- The shape all written SBOMs have. -/
theorem generated_passes {E : VEnv} {v : SpecVersion} {b : Bom} {m : Metadata} {top : Component}
    {comps : List Component} {env : Env}
    (hser : ∀ u, b.serialNumber = some u → validateUrnUuid u = .ok ())
    (hm : b.metadata = some m) (hpm : PlainMetadata E v m) (htop : m.component = some top)
    (hpt : PlainComponent env E v top)
    (hsubs : ∀ c ∈ top.components.getD [], PlainComponent env E v c ∧ c.components = none)
    (hcomps : b.components = some comps)
    (hpc : ∀ c ∈ comps, PlainComponent env E v c ∧ c.components = none)
    (h0 : b.services = none ∧ b.externalReferences = none ∧ b.compositions = none ∧
      b.properties = none ∧ b.vulnerabilities = none)
    (hnd : (top.bomRef :: (top.components.getD []).map (·.bomRef) ++ comps.map (·.bomRef)).Nodup)
    (hnn : none ∉ top.bomRef :: (top.components.getD []).map (·.bomRef) ++ comps.map (·.bomRef))
    (hdeps : ∀ d ∈ b.dependencies.getD [], ∀ r ∈ d.dependencyRef :: d.dependencies,
      top.bomRef = some r ∨ some r ∈ comps.map (·.bomRef)) :
    Bom.validateVersion E v b = .ok [] := by
  obtain ⟨s1, s2, s3, s4, s5⟩ := h0
  have hleaf : ∀ c, PlainComponent env E v c ∧ c.components = none →
      (Elem.component c).Passes E v := by
    intro c ⟨h1, h2⟩
    exact h1.passes v (by rw [h2]; simp)
  have hrefs : b.refs.map some =
      top.bomRef :: (top.components.getD []).map (·.bomRef) ++ comps.map (·.bomRef) := by
    have ht : Component.refs top = top.bomRef.toList ++ Component.refsOption top.components := by
      cases top; rfl
    have hto : ∀ o : Option (List Component),
        Component.refsOption o = Component.refsList (o.getD []) := by
      intro o; cases o <;> rfl
    have hsome : ∀ l : List (Option String), none ∉ l → l.filter (·.isSome) = l := by
      intro l hl
      rw [List.filter_eq_self]
      intro a ha
      cases a with
      | none => exact absurd ha hl
      | some a => rfl
    have hns : none ∉ (top.components.getD []).map (·.bomRef) := fun h => hnn (by simp [h])
    have hnc : none ∉ comps.map (·.bomRef) := fun h => hnn (List.mem_append_right _ h)
    unfold Bom.refs
    simp only [hm, htop, hcomps, s1, s5, Option.bind_some, Option.toList_some, List.flatMap_cons,
      List.flatMap_nil, List.append_nil, Service.refsOption, Component.refsOption,
      Option.getD_none, List.map_append, ht, hto top.components]
    rw [refsList_flat (fun c hc => (hpc c hc).2), refsList_flat (fun c hc => (hsubs c hc).2),
      hsome _ hns, hsome _ hnc]
    cases htr : top.bomRef with
    | none => rw [htr] at hnn; simp at hnn
    | some r => simp
  have hmem : ∀ r, r ∈ b.refs ↔ some r ∈ b.refs.map some := by intro r; simp
  have hp : (Elem.bom b).Passes E v := by
    refine passes_of_checked ((rule_bom E v b).mpr ⟨?_, ?_, ?_⟩) ?_
    · rw [← hrefs] at hnd
      exact List.Pairwise.of_map some (fun a b h e => h (by rw [e])) hnd
    · intro d hd
      have hk : ∀ r ∈ d.dependencyRef :: d.dependencies, r ∈ b.refs := by
        intro r hr
        rw [hmem, hrefs]
        rcases hdeps d hd r hr with h | h
        · rw [h]; simp
        · exact List.mem_append_right _ h
      exact ⟨hk _ List.mem_cons_self, fun r hr => hk r (List.mem_cons_of_mem _ hr)⟩
    · rw [s3]; simp
    · rw [checked_bom, hm, hcomps, s1, s2, s3, s4, s5]
      simp only [List.forall_mem_append, forall_opt, forall_many, reduceCtorEq, false_implies,
        implies_true, and_true, Option.some.injEq, forall_eq']
      refine ⟨⟨?_, ?_⟩, ?_⟩
      · intro u hu; rw [passes_serialNumber]; exact hser u hu
      · refine hpm.passes v ?_
        rw [htop]
        simp only [Option.some.injEq, forall_eq']
        refine hpt.passes v ?_
        intro l hl c hc
        exact hleaf c (hsubs c (by rw [hl]; exact hc))
      · intro c hc; exact hleaf c (hpc c hc)
  exact (passes_bom E v b).mp hp

theorem artifactLoop_mem {bom : Bom} {m : Metadata} {top : Component} {kinds : TargetKinds}
    {d : Describe} {cs : List Component} {l : List (Bom × List String)}
    (h : artifactLoop bom m top kinds d cs = .ok l) :
    ∀ x ∈ l, ∃ c ∈ cs, x.1 = artifactBom bom m top c := by
  induction cs generalizing l with
  | nil => simp only [artifactLoop, Except.ok.injEq] at h; subst h; simp
  | cons c cs ih =>
    unfold artifactLoop at h
    simp only [Res.bind_ok] at h
    obtain ⟨k, _, sel, _, rest, hr, h⟩ := h
    simp only [Except.ok.injEq] at h
    subst h
    intro x hx
    have hrest : x ∈ rest → ∃ c' ∈ c :: cs, x.1 = artifactBom bom m top c' := by
      intro hx
      obtain ⟨c', h1, h2⟩ := ih hr x hx
      exact ⟨c', List.mem_cons_of_mem _ h1, h2⟩
    split at hx
    · rcases List.mem_cons.mp hx with rfl | hx
      · exact ⟨c, List.mem_cons_self, rfl⟩
      · exact hrest hx
    · exact hrest hx

theorem artifactWrites_mem {debug : Bool} {s : GeneratedSbom} {l : List (Bom × List String)}
    {ws : List FileWrite} (h : artifactWrites debug s l = .ok ws) :
    ∀ w ∈ ws, ∃ x ∈ l, w.bom = x.1 := by
  induction l generalizing ws with
  | nil => simp only [artifactWrites, Except.ok.injEq] at h; subst h; simp
  | cons x l ih =>
    obtain ⟨b, k⟩ := x
    unfold artifactWrites at h
    have h' : ∃ more p, artifactWrites debug s l = .ok more ∧ ws = fileWrite b p s.sbomConfig :: more := by
      cases hb : b.metadata with
      | none => simp [hb, bind, Except.bind] at h
      | some md =>
        cases hc : md.component with
        | none => simp [hb, hc, bind, Except.bind] at h
        | some c =>
          simp only [hb, hc, Res.bind_ok, Except.ok.injEq] at h
          obtain ⟨_, rfl, h⟩ := h
          simp only [hc, Res.bind_ok, Except.ok.injEq] at h
          obtain ⟨_, _, _, _, more, hm, h⟩ := h
          exact ⟨more, _, hm, h.symm⟩
    obtain ⟨more, p, hm, rfl⟩ := h'
    intro w hw
    rcases List.mem_cons.mp hw with rfl | hw
    · exact ⟨_, List.mem_cons_self, rfl⟩
    · obtain ⟨y, h1, h2⟩ := ih hm w hw
      exact ⟨y, List.mem_cons_of_mem _ h1, h2⟩

end Cdx
