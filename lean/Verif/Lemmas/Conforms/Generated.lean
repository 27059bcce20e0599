import Verif.Lemmas.Conforms.Bom
import Verif.Lemmas.Written
import Verif.Lemmas.Targets
import Verif.Spec.SchemaEnv
import Verif.Props.Formats

/-!
# Generated SBOMs conform to the JSON schema
-/

namespace Cdx

open Spec OMap

set_option linter.unusedVariables false
set_option linter.unusedSimpArgs false

variable {F : Formats} {v : SpecVersion}

/-! ## Different components are written differently -/

theorem same_member {o p : List (String × Option Json)} (h : Same (.mk o) (.mk p)) {k : String} {x : Json}
    (hx : (k, some x) ∈ o) : ∃ y, (k, some y) ∈ p ∧ Same x y := by
  unfold Json.mk at h
  cases h with
  | obj h1 h2 =>
    obtain ⟨y, hy⟩ := (h1 k).mp ⟨x, mem_mkFields.mpr hx⟩
    exact ⟨y, mem_mkFields.mp hy, h2 k x y (mem_mkFields.mpr hx) hy⟩

theorem same_bomRef {a b : Component} (h : Same (Component.toJson v a) (Component.toJson v b))
    {r : String} (ha : a.bomRef = some r) : b.bomRef = some r := by
  rw [Component.toJson_members, Component.toJson_members b] at h
  obtain ⟨y, hy, hs⟩ := same_member h (k := "bom-ref") (x := .str r) (by rw [ha]; simp)
  have : b.bomRef.map Json.str = some y := by
    cases v <;> simpa [since14, since15, Component.toJsonOpt, Pedigree.toJsonOpt, eq_comm] using hy
  obtain ⟨s, hb, rfl⟩ := Option.map_eq_some_iff.mp this
  cases hs
  exact hb

theorem distinct_components {l : List Component} (h : (l.map (·.bomRef)).Nodup)
    (hn : ∀ c ∈ l, c.bomRef ≠ none) : WrittenDistinct (Component.toJson v) (some l) := by
  intro m hm
  cases hm
  induction l with
  | nil => exact .nil
  | cons a l ih =>
    rw [List.map_cons, List.nodup_cons] at h
    refine .cons (fun b hb hs => ?_) (ih h.2 (fun c hc => hn c (List.mem_cons_of_mem _ hc)))
    obtain ⟨r, hr⟩ := Option.ne_none_iff_exists'.mp (hn a List.mem_cons_self)
    exact h.1 (List.mem_map.mpr ⟨b, hb, by rw [hr, same_bomRef hs hr]⟩)

theorem distinct_dependencies {l : List Dependency} (h : (l.map (·.dependencyRef)).Nodup) :
    WrittenDistinct Dependency.toJson (some l) := by
  intro m hm
  cases hm
  induction l with
  | nil => exact .nil
  | cons a l ih =>
    rw [List.map_cons, List.nodup_cons] at h
    refine .cons (fun b hb hs => ?_) (ih h.2)
    obtain ⟨y, hy, hs⟩ := same_member hs (k := "ref") (x := .str a.dependencyRef) (by simp)
    have : y = .str b.dependencyRef := by
      simp only [Json.unlessEmpty] at hy
      split at hy <;> simpa using hy
    subst this
    refine h.1 (List.mem_map.mpr ⟨b, hb, ?_⟩)
    have : ∀ {x y : String}, Same (.str x) (.str y) → y = x := fun h => by cases h; rfl
    exact this hs

/-! ## The parts -/

theorem normalizedString_sound {x : String} : (Elem.normalizedString x).Sound F v :=
  sound_iff.mpr ⟨trivial, (fun _ h => nomatch h)⟩

/-- What the schema needs of a generated component, beside its shape. -/
structure SchemaComponent (F : Formats) (c : Component) : Prop where
  mime : c.mimeType = none
  bomRef : ∃ r, c.bomRef = some r ∧ r ≠ ""
  hashes : ∀ y, c.hashes = some y → ∀ z ∈ y, patternHash.isMatch z.content = true
  licenses : ∀ y, c.licenses = some y → (∃ e, y = [.expression { expression := e }]) ∨ ∃ l, y = [.license l]
  references : ∀ y, c.externalReferences = some y → ∀ z ∈ y, F "iri-reference" z.url.display

theorem licenseName_sound (n : String) : (Elem.licenseIdentifier (.name n)).Sound F v := by
  refine sound_licenseIdentifier_name.mpr ⟨trivial, ?_⟩
  simp only [List.append_nil, List.mem_singleton, forall_eq]
  exact normalizedString_sound

theorem genLicense_sound {x : LicenseChoice} (h : GenLicense x)
    (he : ∀ e, x = .expression e → e.bomRef = none) : (Elem.licenseChoice x).Sound F v := by
  have text : ∀ c, (Elem.attachedText { encoding := some .base64, content := c }).Sound F v := by
    intro c
    refine sound_attachedText.mpr ⟨fun e h => ?_, ?_⟩
    · cases h; rfl
    · simp [opt]
  rcases h with ⟨e, rfl⟩ | ⟨n, rfl⟩ | ⟨n, c, rfl⟩
  · refine sound_licenseChoice_expression.mpr ⟨trivial, ?_⟩
    simp only [List.append_nil, List.mem_singleton, forall_eq]
    exact sound_iff.mpr ⟨fun _ => he _ rfl, (fun _ h => nomatch h)⟩
  · refine sound_licenseChoice_license.mpr ⟨trivial, ?_⟩
    simp only [List.append_nil, List.mem_singleton, forall_eq]
    refine sound_license.mpr ⟨fun _ => rfl, ?_⟩
    simp only [List.forall_mem_append, List.mem_singleton, forall_eq, forall_mem_opt, forall_mem_many,
      reduceCtorEq, false_implies, implies_true, and_true]
    exact licenseName_sound n
  · refine sound_licenseChoice_license.mpr ⟨trivial, ?_⟩
    simp only [List.append_nil, List.mem_singleton, forall_eq]
    refine sound_license.mpr ⟨fun _ => rfl, ?_⟩
    simp only [List.forall_mem_append, List.mem_singleton, forall_eq, forall_mem_opt, forall_mem_many,
      reduceCtorEq, false_implies, implies_true, and_true, Option.some.injEq, forall_eq']
    exact ⟨licenseName_sound n, text c⟩

theorem hash_sound {x : Hash} (h : x.alg = .sha256) (hp : patternHash.isMatch x.content = true) :
    (Elem.hash x).Sound F v := by
  refine sound_hash.mpr ⟨trivial, ?_⟩
  simp only [List.forall_mem_append, List.mem_singleton, forall_eq, List.not_mem_nil, false_implies,
    implies_true, and_true]
  exact ⟨sound_iff.mpr ⟨(fun s e => by rw [h] at e; cases e), (fun _ h => nomatch h)⟩,
    sound_iff.mpr ⟨hp, (fun _ h => nomatch h)⟩⟩

theorem reference_sound {t : ExternalReferenceType} {u : String}
    (ht : t ∈ [ExternalReferenceType.documentation, .website, .other, .vcs])
    (hu : F "iri-reference" (ExternalReference.new t u).url.display) :
    (Elem.externalReference (ExternalReference.new t u)).Sound F v := by
  refine sound_externalReference.mpr ⟨trivial, ?_⟩
  simp only [List.forall_mem_append, List.mem_singleton, forall_eq, List.not_mem_nil, false_implies,
    implies_true, and_true, forall_mem_many]
  refine ⟨⟨sound_iff.mpr ⟨?_, (fun _ h => nomatch h)⟩, sound_iff.mpr ⟨hu, (fun _ h => nomatch h)⟩⟩,
    (fun _ h => nomatch h)⟩
  show ReferenceTypeIn v t
  simp only [List.mem_cons, List.not_mem_nil, or_false] at ht
  rcases ht with rfl | rfl | rfl | rfl <;> exact .inl (by simp)

theorem SchemaComponent.sound {c : Component} (hs : SchemaComponent F c) (hg : GenComponent c)
    (hd : WrittenDistinct (Component.toJson v) c.components)
    (hc : ∀ l, c.components = some l → ∀ z ∈ l, (Elem.component z).Sound F v) :
    (Elem.component c).Sound F v := by
  refine sound_component.mpr ⟨⟨fun _ => hg.version, fun _ => hg.data, ?_, hd⟩, ?_⟩
  · intro r hr _
    obtain ⟨r', h1, h2⟩ := hs.bomRef
    rw [hr] at h1; cases h1
    exact h2
  · simp only [List.forall_mem_append, List.mem_singleton, forall_eq, forall_mem_opt, forall_mem_many,
      hs.mime, hg.supplier, hg.publisher, hg.group, hg.copyright, hg.cpe, hg.swid, hg.pedigree,
      hg.properties, hg.evidence, hg.signature, hg.modelCard, hg.data,
      reduceCtorEq, false_implies, implies_true, and_true]
    refine ⟨⟨⟨⟨⟨⟨⟨⟨⟨⟨?_, ?_⟩, ?_⟩, ?_⟩, ?_⟩, ?_⟩, ?_⟩, ?_⟩, ?_⟩, ?_⟩, ?_⟩
    · refine sound_iff.mpr ⟨?_, (fun _ h => nomatch h)⟩
      show ClassificationIn v c.componentType
      rcases hg.type with e | e <;> rw [e] <;> simp [ClassificationIn]
    · exact fun _ _ => normalizedString_sound
    · exact normalizedString_sound
    · exact fun _ _ => normalizedString_sound
    · exact fun _ _ => normalizedString_sound
    · intro y hy
      refine sound_iff.mpr ⟨fun s e => ?_, (fun _ h => nomatch h)⟩
      rcases hg.scope y hy with rfl | rfl <;> cases e
    · exact fun y hy z hz => hash_sound (hg.hashes y hy z hz) (hs.hashes y hy z hz)
    · intro y hy
      have hl := hs.licenses y hy
      refine sound_licenses.mpr ⟨fun _ => ?_, ?_⟩
      · rcases hl with ⟨e, rfl⟩ | ⟨l, rfl⟩
        · exact .inr ⟨_, rfl⟩
        · exact .inl fun c hc => ⟨l, by simpa using hc⟩
      · simp only [List.append_nil, List.forall_mem_map]
        intro z hz
        refine genLicense_sound (hg.licenses y hy z hz) ?_
        rintro e rfl
        rcases hl with ⟨e', rfl⟩ | ⟨l, rfl⟩
        · simp only [List.mem_singleton, LicenseChoice.expression.injEq] at hz
          rw [hz]
        · simp at hz
    · exact fun _ _ => sound_iff.mpr ⟨trivial, (fun _ h => nomatch h)⟩
    · intro y hy z hz
      obtain ⟨t, u, h1, rfl⟩ := hg.externalReferences y hy z hz
      exact reference_sound h1 (hs.references y hy _ hz)
    · exact hc

/-- A list of components without parts. -/
structure SchemaComponents (F : Formats) (l : List Component) : Prop where
  each : ∀ z ∈ l, SchemaComponent F z
  refs : (l.map (·.bomRef)).Nodup

theorem SchemaComponents.distinct {l : List Component} (h : SchemaComponents F l) :
    WrittenDistinct (Component.toJson v) (some l) :=
  distinct_components h.refs fun c hc e => by
    obtain ⟨r, hr, _⟩ := (h.each c hc).bomRef
    rw [hr] at e; cases e

theorem SchemaComponents.sound {l : List Component} (h : SchemaComponents F l)
    (hg : ∀ z ∈ l, GenComponent z ∧ z.components = none) : ∀ z ∈ l, (Elem.component z).Sound F v := by
  intro z hz
  obtain ⟨h1, h2⟩ := hg z hz
  refine (h.each z hz).sound h1 (by rw [h2]; exact fun m hm => nomatch hm) ?_
  rw [h2]
  exact fun m hm => nomatch hm

/-- What the schema needs of generated metadata, beside its shape. -/
structure SchemaMetadata (F : Formats) (m : Metadata) : Prop where
  timestamp : ∀ d, m.timestamp = some d → F "date-time" d
  authors : ∀ l, m.authors = some l → ∀ a ∈ l, a.bomRef = none ∧ ∀ e, a.email = some e → F "idn-email" e
  component : ∀ top, m.component = some top → SchemaComponent F top ∧
    ∀ l, top.components = some l → SchemaComponents F l

theorem SchemaMetadata.sound {m : Metadata} (hs : SchemaMetadata F m) (hg : GenMetadata m) :
    (Elem.metadata m).Sound F v := by
  refine sound_metadata.mpr ⟨fun l hl => ?_, ?_⟩
  · rw [hg.lifecycles] at hl; cases hl
  · simp only [List.forall_mem_append, List.mem_singleton, forall_eq, forall_mem_opt, forall_mem_many,
      hg.manufacture, hg.supplier, hg.licenses, hg.lifecycles, Option.getD_none, List.flatMap_nil,
      reduceCtorEq, false_implies, implies_true, and_true, List.not_mem_nil]
    refine ⟨⟨⟨⟨?_, ?_⟩, ?_⟩, ?_⟩, ?_⟩
    · exact fun d hd => sound_iff.mpr ⟨hs.timestamp d hd, (fun _ h => nomatch h)⟩
    · intro t ht
      obtain ⟨a, b, c, e⟩ := hg.tools
      rw [e] at ht; cases ht
      refine sound_tools_list.mpr ⟨trivial, ?_⟩
      simp only [List.append_nil, List.map_cons, List.map_nil, List.mem_singleton, forall_eq]
      refine sound_tool.mpr ⟨trivial, ?_⟩
      simp only [List.forall_mem_append, forall_mem_opt, forall_mem_many, Tool.new, reduceCtorEq,
        false_implies, implies_true, and_true, List.not_mem_nil]
      exact ⟨⟨fun _ _ => normalizedString_sound, fun _ _ => normalizedString_sound⟩,
        fun _ _ => normalizedString_sound⟩
    · intro l hl a ha
      obtain ⟨h1, h2⟩ := hs.authors l hl a ha
      refine sound_organizationalContact.mpr ⟨fun _ => ⟨h1, h2⟩, ?_⟩
      simp only [List.forall_mem_append, forall_mem_opt, h1, reduceCtorEq, false_implies, implies_true,
        and_true, true_and, List.not_mem_nil]
      exact ⟨⟨fun _ _ => normalizedString_sound, fun _ _ => normalizedString_sound⟩,
        fun _ _ => normalizedString_sound⟩
    · intro top ht
      obtain ⟨h1, h2⟩ := hs.component top ht
      obtain ⟨top', e, h3, h4⟩ := hg.component
      rw [ht] at e; cases e
      refine h1.sound h3 ?_ (fun l hl => (h2 l hl).sound (h4 l hl))
      intro l hl
      exact (h2 l hl).distinct l rfl
    · intro l _ p _
      refine sound_property.mpr ⟨trivial, ?_⟩
      simp only [List.append_nil, List.mem_singleton, forall_eq]
      exact normalizedString_sound

/-- What the schema needs of a generated document, beside its shape. -/
structure SchemaBom (F : Formats) (b : Bom) : Prop where
  serialNumber : ∀ u, b.serialNumber = some u → patternSerial.isMatch u = true
  metadata : ∀ m, b.metadata = some m → SchemaMetadata F m
  components : ∀ l, b.components = some l → SchemaComponents F l
  dependencies : ∀ l, b.dependencies = some l → (l.map (·.dependencyRef)).Nodup ∧
    ∀ d ∈ l, d.dependencyRef ≠ "" ∧ d.dependencies.Nodup ∧ ∀ r ∈ d.dependencies, r ≠ ""

theorem SchemaBom.sound {b : Bom} (hs : SchemaBom F b) (hg : GenBom b) : (Elem.bom b).Sound F v := by
  obtain ⟨m, hm, hgm⟩ := hg.metadata
  obtain ⟨l, hl, hgl⟩ := hg.components
  refine sound_bom.mpr ⟨⟨?_, ?_, ?_, ?_, ?_, ?_, ?_, ?_, ?_⟩, ?_⟩
  · intro _
    rw [hg.version]
  · rw [hl]
    exact (hs.components l hl).distinct
  · rw [hg.services]; exact fun m h => nomatch h
  · intro l hl
    exact distinct_dependencies (hs.dependencies l hl).1 l rfl
  · intro l hl d hd
    obtain ⟨h1, h2, h3⟩ := (hs.dependencies l hl).2 d hd
    exact ⟨fun _ => h1, h2, fun r hr _ => h3 r hr⟩
  · rw [hg.compositions]; exact fun m h => nomatch h
  · rw [hg.vulnerabilities]; exact fun m h => nomatch h
  · rw [hg.annotations]; exact fun m h => nomatch h
  · rw [hg.formulation]; exact fun m h => nomatch h
  · simp only [List.forall_mem_append, forall_mem_opt, forall_mem_many, hg.services,
      hg.externalReferences, hg.compositions, hg.properties, hg.vulnerabilities, hg.signature,
      hg.annotations, hg.formulation, hm, hl, Option.some.injEq, forall_eq',
      reduceCtorEq, false_implies, implies_true, and_true]
    exact ⟨⟨fun u hu => sound_iff.mpr ⟨hs.serialNumber u hu, (fun _ h => nomatch h)⟩,
      (hs.metadata m hm).sound hgm⟩, (hs.components l hl).sound hgl⟩

/-! ## The generator -/

theorem hash_pattern (h : Vector UInt8 32) : patternHash.isMatch (toBomHash h).content = true := by
  have h1 := hexBytes_exactly h.toList
  unfold patternHash
  rw [Pattern.isMatch_anchored]
  refine .inr (.inr (.inl ?_))
  refine (Re.lang_rep_cls _ _ _).mpr ?_
  rw [toBomHash, String.toList_ofList]
  refine ⟨by rw [h1.1]; simp, fun c hc => ?_⟩
  have := h1.2 c hc
  unfold LowerHex at this
  have hall : ∀ c ∈ "0123456789abcdef".toList, isHex c = true := by decide
  exact hall c this

theorem createComponent_schema {env : Env} (fa : FormatsAgree env F) {g : SbomGenerator} {p r : Package}
    {kinds : DependencyKindMap} {c : Component} (hp : p.id ≠ "")
    (h : createComponent env g p r kinds = .ok c) : SchemaComponent F c := by
  obtain ⟨purl, -, rfl⟩ := createComponent_ok h
  constructor
  case mime => rfl
  case bomRef => exact ⟨_, rfl, hp⟩
  case hashes =>
    intro y hy z hz
    have hy : getHashes g.crateHashes p = some y := hy
    unfold getHashes at hy
    split at hy
    · cases hy; simp only [List.mem_singleton] at hz; subst hz; exact hash_pattern _
    · cases hy
  case licenses =>
    intro y hy
    rcases getLicenses_cases hy with ⟨l, -, rfl⟩ | ⟨-, f, c, -, -, rfl⟩
    · unfold licenseOfString
      dsimp only
      split
      · rename_i e he
        left
        have key : ∀ s, SpdxExpression.tryFrom env s = some e → e.bomRef = none := by
          intro s hs
          unfold SpdxExpression.tryFrom at hs
          split at hs <;> cases hs
          rfl
        have : e.bomRef = none := by
          split at he
          · exact key _ he
          · unfold SpdxExpression.parseLax at he
            split at he
            · exact key _ he
            · cases he
        refine ⟨e.expression, ?_⟩
        cases e
        simp only at this
        rw [this]
      · exact .inr ⟨_, rfl⟩
    · exact .inr ⟨_, rfl⟩
  case references =>
    intro y hy z hz
    obtain ⟨t, u, h1, h2, rfl⟩ := getExternalReferences_gen hy z hz
    have : (ExternalReference.new t u).url.display = u := by
      simp only [ExternalReference.new, RefUri.ofUrl]
      split <;> rfl
    rw [this]
    exact fa.uri u h2

theorem createSubcomponent_schema {env : Env} {g : SbomGenerator} {p : Package} {t : Target}
    {ty : Classification} {ref : String} {c : Component} (hr : ref ≠ "")
    (h : createSubcomponent env g p t ty ref = .ok c) : SchemaComponent F c := by
  have key : ∀ purl, SchemaComponent F { Component.new ty t.name p.version (some ref) with purl := purl } :=
    fun purl => ⟨rfl, ⟨_, rfl, hr⟩, (fun y hy => nomatch hy), (fun y hy => nomatch hy), (fun y hy => nomatch hy)⟩
  unfold createSubcomponent at h
  split at h
  · cases h
  · split at h
    · simp only [Res.bind_ok, Except.ok.injEq] at h
      obtain ⟨purl, -, rfl⟩ := h
      exact key purl
    · simp only [Except.ok.injEq] at h
      subst h
      exact key none

theorem targetRef_ne (ref : String) (n : Nat) : targetRef ref n ≠ "" := by
  intro h
  have := congrArg (fun x => x.toList.length) h
  unfold targetRef at this
  simp only [String.toList_append, List.length_append] at this
  have h3 : " bin-target-".toList.length = 12 := by decide
  have h4 : "".toList.length = 0 := by decide
  omega

theorem targetLoop_schema {env : Env} {g : SbomGenerator} {p : Package} {ref : String} {ts : List Target}
    {subs : List Component} {kinds : TargetKinds} {r : List Component × TargetKinds}
    (hs : ∀ c ∈ subs, SchemaComponent F c) (h : targetLoop env g p ref ts subs kinds = .ok r) :
    ∀ c ∈ r.1, SchemaComponent F c := by
  induction ts generalizing subs kinds with
  | nil => simp only [targetLoop, Except.ok.injEq] at h; subst h; exact hs
  | cons t ts ih =>
    unfold targetLoop at h
    split at h
    · exact ih hs h
    · simp only [Res.bind_ok] at h
      obtain ⟨sub, h1, h2⟩ := h
      refine ih ?_ h2
      intro c hc
      rcases List.mem_append.mp hc with hc | hc
      · exact hs c hc
      · simp only [List.mem_singleton] at hc
        subst hc
        exact createSubcomponent_schema (targetRef_ne _ _) h1

theorem createMetadata_schema {env : Env} (fa : FormatsAgree env F) {g : SbomGenerator} {p : Package}
    (hp : p.id ≠ "") {r : Metadata × TargetKinds} (h : createMetadata env g p = .ok r) :
    SchemaMetadata F r.1 := by
  obtain ⟨ts, top, props, h1, h2, h3, h4⟩ := createMetadata_ok h
  obtain ⟨top', subs, h5, h6, h7⟩ := createToplevel_ok h2
  rw [h4]
  have h7 : top = { top' with componentType := getClassification p, components := some subs } := h7
  have h8 := createComponent_schema fa hp h5
  constructor
  · rintro d ⟨⟩
    unfold metadataTimestamp at h1
    repeat' split at h1
    all_goals first
      | (cases h1; done)
      | (simp only [Except.ok.injEq] at h1; subst h1; first | exact fa.now _ ‹_› | exact fa.dateTime _ ‹_›)
  · intro l hl a ha
    have hl : l = createAuthors env p := by
      dsimp only at hl
      split at hl
      · cases hl
      · exact (Option.some.inj hl).symm
    subst hl
    obtain ⟨s, -, hs⟩ := List.mem_filterMap.mp ha
    unfold parseAuthor at hs
    repeat' split at hs
    all_goals first
      | (cases hs; done)
      | (simp only [Option.some.injEq] at hs; subst hs
         exact ⟨rfl, fun e he => by simp [OrganizationalContact.new] at he⟩)
      | (dsimp only at hs; split at hs
         · simp only [Option.some.injEq] at hs; subst hs
           refine ⟨rfl, fun e he => ?_⟩
           simp only [OrganizationalContact.new, Option.map_some, Option.some.injEq] at he
           subst he
           exact fa.mail _ ‹_›
         · cases hs)
  · rintro t ⟨⟩
    rw [h7]
    refine ⟨⟨h8.mime, h8.bomRef, h8.hashes, h8.licenses, h8.references⟩, ?_⟩
    rintro l ⟨⟩
    refine ⟨targetLoop_schema (by simp) h6, ?_⟩
    rw [targetLoop_refs h6]
    refine List.nodup_range.map _ ?_
    intro a b hab e
    exact hab (targetRef_inj (Option.some.inj e))

theorem SchemaBom.artifact {b : Bom} (h : SchemaBom F b) {m : Metadata} {top c : Component}
    (hm : b.metadata = some m) (ht : m.component = some top) : SchemaBom F (artifactBom b m top c) := by
  have h1 := h.metadata m hm
  have h2 := (h1.component top ht).1
  refine ⟨h.serialNumber, ?_, h.components, h.dependencies⟩
  rintro m' ⟨⟩
  refine ⟨h1.timestamp, h1.authors, ?_⟩
  rintro t ⟨⟩
  exact ⟨⟨h2.mime, h2.bomRef, h2.hashes, h2.licenses, h2.references⟩, (fun l hl => nomatch hl)⟩

theorem generated_schema {env : Env} (fa : FormatsAgree env F) {md : CargoMetadata} {nodes : List Node}
    (hmd : MetadataOk md nodes) (hi : PlainIds md nodes) {config : SbomConfig}
    {sboms : List GeneratedSbom} (h : createSboms env md config = .ok sboms)
    {s : GeneratedSbom} {root : PackageId} (hs : At sboms s md.workspaceMembers root) :
    SchemaBom F s.bom := by
  obtain ⟨i, kinds, pr, pkg, comps, m, h1, h2, sh, sel⟩ := sbom_shape hmd h hs
  have hin : ∀ id p, (indexPackages md.packages).lookup id = some p → p ∈ md.packages := by
    intro id p hp
    have := mem_ofList (OMap.lookup_mem hp)
    simp only [List.mem_map, Prod.mk.injEq] at this
    obtain ⟨a, ha, _, rfl⟩ := this
    exact ha
  have hnode : ∀ n ∈ nodes, n.id ≠ "" := by
    intro n hn
    obtain ⟨p, hp, e⟩ := hmd.packages n hn
    exact e ▸ hi.ids p hp
  constructor
  · intro u hu
    exact (require_ok _ _).mp ((Props.C56_serial_valid hmd h i h1 u hu).2)
  · intro m' hm'
    rw [sh.bom] at hm'
    cases hm'
    exact createMetadata_schema fa (hi.ids _ (hin _ _ sh.pkgOk)) sh.mdOk
  · intro l hl
    rw [sh.bom] at hl
    cases hl
    constructor
    · intro c hc
      obtain ⟨p, hp, hpc⟩ := sh.compsOk.mem_right hc
      have hpm : p ∈ md.packages := by
        obtain ⟨hp, _⟩ := List.mem_filter.mp hp
        simp only [OMap.values, List.mem_map] at hp
        obtain ⟨kv, hkv, rfl⟩ := hp
        have := (OMap.lookup_iff_mem sel.sorted₁).2 (show (kv.1, kv.2) ∈ pr.1 from hkv)
        exact hin _ _ ((sel.pkgs _ _).1 this).1
      exact createComponent_schema fa (hi.ids p hpm) hpc
    · rw [shape_refs sh sel]
      exact ((keys_nodup sel.sorted₁).filter _).map _ (fun a b hab => fun e => hab (Option.some.inj e))
  · intro l hl
    have hl' : dependencyEntries s.bom = l := by simp [dependencyEntries, hl]
    refine ⟨?_, ?_⟩
    · rw [← hl', shape_deps_refs sh sel]
      exact keys_nodup sel.sorted₂
    · intro d hd
      rw [← hl'] at hd
      obtain ⟨-, n, hn, hid, hdeps⟩ := shape_deps_mem sh sel hd
      refine ⟨hid ▸ hnode n hn, ?_, ?_⟩
      · rw [hdeps]
        split
        · exact ((List.filter_sublist).map _).nodup (hi.once n hn)
        · exact .nil
      · intro r hr
        rw [hdeps] at hr
        split at hr
        · obtain ⟨e, he, rfl⟩ := List.mem_map.mp hr
          obtain ⟨m', hm', e'⟩ := hmd.graph.closed n hn e (List.mem_filter.mp he).1
          exact e' ▸ hnode m' hm'
        · cases hr

end Cdx
