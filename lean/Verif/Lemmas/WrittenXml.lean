import Verif.Lemmas.Tidy

/-!
# Lemmas: generated SBOMs are kept by XML
-/

set_option linter.unusedSectionVars false
set_option linter.unusedSimpArgs false

namespace Cdx

open Spec

variable [F32Format] [ReadLimit]

/-- The texts of a generated component that XML keeps. -/
structure TidyComponent (c : Component) : Prop where
  name : Trimmed c.name
  version : ∀ y, c.version = some y → Trimmed y
  description : ∀ y, c.description = some y → Trimmed y
  author : ∀ y, c.author = some y → Trimmed y
  purl : ∀ y, c.purl = some y → Trimmed y
  hashes : ∀ y, c.hashes = some y → ∀ z ∈ y, Trimmed z.content
  licenses : ∀ y, c.licenses = some y → ∀ z ∈ y, ∀ v, LicenseChoice.XmlOk v z
  externalReferences : ∀ y, c.externalReferences = some y → ∀ z ∈ y, Trimmed z.url.display

theorem GenComponent.xmlOk {c : Component} (h : GenComponent c) (ht : TidyComponent c) (v : SpecVersion)
    {sub : Component → Prop} (hs : ∀ y, c.components = some y → ∀ z ∈ y, sub z) :
    Component.XmlOkWith sub v c where
  componentType := by rcases h.type with e | e <;> rw [e] <;> rfl
  supplier := fun y hy => by rw [h.supplier] at hy; cases hy
  author := ht.author
  publisher := fun y hy => by rw [h.publisher] at hy; cases hy
  group := fun y hy => by rw [h.group] at hy; cases hy
  name := ht.name
  version_some := fun _ => h.version
  version := ht.version
  description := ht.description
  scope := fun y hy => by rcases h.scope y hy with rfl | rfl <;> exact ⟨rfl, rfl⟩
  hashes := fun y hy z hz => ⟨by rw [h.hashes y hy z hz]; rfl, ht.hashes y hy z hz⟩
  licenses := fun y hy z hz => ht.licenses y hy z hz v
  copyright := fun y hy => by rw [h.copyright] at hy; cases hy
  cpe := fun y hy => by rw [h.cpe] at hy; cases hy
  purl := ht.purl
  swid := fun y hy => by rw [h.swid] at hy; cases hy
  pedigree := fun y hy => by rw [h.pedigree] at hy; cases hy
  externalReferences := fun y hy z hz => by
    have hu := ht.externalReferences y hy z hz
    obtain ⟨t, u, ht, rfl⟩ := h.externalReferences y hy z hz
    refine ⟨?_, ⟨ofUrl_stable u, hu⟩, fun y hy => (by cases hy), fun y hy => (by cases hy)⟩
    show Stable _ _ t
    simp only [List.mem_cons, List.not_mem_nil, or_false] at ht
    rcases ht with rfl | rfl | rfl | rfl <;> rfl
  properties := fun y hy => by rw [h.properties] at hy; cases hy
  components := hs
  evidence := fun y hy => by rw [h.evidence] at hy; cases hy
  signature := fun _ y hy => by rw [h.signature] at hy; cases hy
  modelCard := fun _ y hy => by rw [h.modelCard] at hy; cases hy
  data := fun _ y hy => by rw [h.data] at hy; cases hy

section
variable {env : Env} (rt : RendersTrimmed env)
include rt

theorem getPurl_trimmed {p r : Package} {ws : FPath} {sub : Option (List String)} {o : Option Purl}
    (h : getPurl env p r ws sub = .ok o) : ∀ y, o = some y → Trimmed y := by
  unfold getPurl at h
  simp only [Res.bind_ok] at h
  obtain ⟨qs, -, h⟩ := h
  split at h
  · simp only [Except.ok.injEq] at h; subst h; intro y hy; cases hy
  · rename_i q hq
    split at h
    · cases h
    · simp only [Except.ok.injEq] at h
      subst h
      intro y hy
      cases hy
      exact (rt.purl _ _ _ _ _ hq).trimmed

omit rt in
theorem licenseOfString_tidy {config : SbomConfig} {l : String}
    (h : l ≠ "" ∧ NoOuterSpace l ∧ l.toList.head? ≠ some '/' ∧ l.toList.getLast? ≠ some '/')
    (v : SpecVersion) : LicenseChoice.XmlOk v (licenseOfString env config l) := by
  obtain ⟨h0, h1, h2, h3⟩ := h
  unfold licenseOfString
  dsimp only
  split
  · rename_i e he
    refine ⟨?_⟩
    split at he
    · unfold SpdxExpression.tryFrom at he
      split at he
      · cases he; exact h1.trimmed
      · cases he
    · unfold SpdxExpression.parseLax at he
      split at he
      · unfold SpdxExpression.tryFrom at he
        split at he
        · cases he
          refine TidyChars.trimmed ?_
          rw [String.toList_ofList]
          exact replaceSlash_tidy (noOuterSpace_iff.mp h1) h2 h3
        · cases he
      · cases he
  · refine ⟨fun _ => rfl, ⟨normalized_trimmed (noOuterSpace_iff.mp h1), normalized_ne_empty h0⟩,
      fun y hy => (by cases hy), fun y hy => (by cases hy), fun _ y hy => (by cases hy)⟩

theorem createComponent_tidy {g : SbomGenerator} {p r : Package}
    {kinds : DependencyKindMap} {c : Component} (hp : TidyPackage env p)
    (h : createComponent env g p r kinds = .ok c) : TidyComponent c := by
  obtain ⟨purl, hpu, rfl⟩ := createComponent_ok h
  constructor
  case name => exact normalized_trimmed (trim_tidy _)
  case version => intro y hy; cases hy; exact normalized_trimmed (noOuterSpace_iff.mp hp.version)
  case description =>
    intro y hy
    have hy : p.description.map normalizedString = some y := hy
    cases hd : p.description with
    | none => rw [hd] at hy; cases hy
    | some d =>
      rw [hd] at hy; cases hy
      exact normalized_trimmed (noOuterSpace_iff.mp (hp.description d hd))
  case author =>
    intro y hy
    have hy : (if p.authors.isEmpty then none
        else some (normalizedString (joinStr ", " p.authors))) = some y := hy
    split at hy
    · cases hy
    · cases hy; exact normalized_trimmed (join_tidy hp.authors)
  case purl => exact getPurl_trimmed rt hpu
  case hashes =>
    intro y hy z hz
    have hy : getHashes g.crateHashes p = some y := hy
    unfold getHashes at hy
    split at hy
    · cases hy
      simp only [List.mem_singleton] at hz
      subst hz
      refine TidyChars.trimmed ?_
      unfold toBomHash
      rw [String.toList_ofList]
      exact hexBytes_tidy _
    · cases hy
  case licenses =>
    intro y hy z hz v
    rcases getLicenses_cases hy with ⟨l, hl, rfl⟩ | ⟨hl, f, t, hf, ht, rfl⟩ <;>
      simp only [List.mem_singleton] at hz <;> subst hz
    · exact licenseOfString_tidy (hp.license l hl) v
    · refine ⟨fun _ => rfl, ⟨rfl, (by decide)⟩, fun y hy => ?_, fun y hy => (by cases hy),
        fun _ y hy => (by cases hy)⟩
      cases hy
      have hne : t ≠ "" := fun e => hp.licenseFile f hl hf (e ▸ ht)
      refine ⟨fun y hy => (by cases hy; rfl), TidyChars.trimmed ?_, ?_⟩
      · unfold attachedText
        rw [String.toList_ofList]
        exact .of_all (b64Encode_notSpace _)
      · unfold attachedText
        intro e
        have := congrArg String.toList e
        rw [String.toList_ofList] at this
        exact b64Encode_ne_nil (utf8Bytes_ne_nil hne) this
  case externalReferences =>
    intro y hy z hz
    obtain ⟨t, u, -, h1, rfl⟩ := getExternalReferences_gen hy z hz
    have : (ExternalReference.new t u).url.display = u := by
      show (RefUri.ofUrl u).display = u
      unfold RefUri.ofUrl
      split <;> rfl
    rw [this]
    exact (rt.uri u h1).trimmed

theorem createSubcomponent_tidy {g : SbomGenerator} {p : Package} {t : Target}
    {ty : Classification} {ref : String} {c : Component} (hp : NoOuterSpace p.version)
    (hn : NoOuterSpace t.name) (h : createSubcomponent env g p t ty ref = .ok c) : TidyComponent c := by
  have key : ∀ purl : Option Purl, (∀ y, purl = some y → Trimmed y) →
      TidyComponent { Component.new ty t.name p.version (some ref) with purl := purl } := by
    intro purl hpu
    refine ⟨normalized_trimmed (noOuterSpace_iff.mp hn), ?_, fun y hy => (by cases hy),
      fun y hy => (by cases hy), hpu, fun y hy => (by cases hy), fun y hy => (by cases hy),
      fun y hy => (by cases hy)⟩
    intro y hy
    cases hy
    exact normalized_trimmed (noOuterSpace_iff.mp hp)
  unfold createSubcomponent at h
  split at h
  · cases h
  · split at h
    · simp only [Res.bind_ok, Except.ok.injEq] at h
      obtain ⟨purl, hpu, rfl⟩ := h
      exact key purl (getPurl_trimmed rt hpu)
    · simp only [Except.ok.injEq] at h
      subst h
      exact key none (fun y hy => by cases hy)

theorem targetLoop_tidy {g : SbomGenerator} {p : Package} {ref : String} {ts : List Target}
    {subs : List Component} {kinds : TargetKinds} {r : List Component × TargetKinds}
    (hp : NoOuterSpace p.version) (hn : ∀ t ∈ ts, NoOuterSpace t.name)
    (hs : ∀ c ∈ subs, TidyComponent c)
    (h : targetLoop env g p ref ts subs kinds = .ok r) : ∀ c ∈ r.1, TidyComponent c := by
  induction ts generalizing subs kinds with
  | nil => simp only [targetLoop, Except.ok.injEq] at h; subst h; exact hs
  | cons t ts ih =>
    have hn' : ∀ t ∈ ts, NoOuterSpace t.name := fun x hx => hn x (List.mem_cons_of_mem _ hx)
    unfold targetLoop at h
    split at h
    · exact ih hn' hs h
    · simp only [Res.bind_ok] at h
      obtain ⟨sub, h1, h2⟩ := h
      refine ih hn' ?_ h2
      intro c hc
      rcases List.mem_append.mp hc with hc | hc
      · exact hs c hc
      · simp only [List.mem_singleton] at hc
        subst hc
        exact createSubcomponent_tidy rt hp (hn t List.mem_cons_self) h1

theorem parseAuthor_tidy {a : String} {c : OrganizationalContact} (ha : NoOuterSpace a)
    (h : parseAuthor env a = some c) :
    OrganizationalContact.XmlOk c ∧ OrganizationalContact.willWrite c = true := by
  have key : ∀ (n : String) (e : Option String), TidyChars n.toList →
      (∀ x, e = some x → NoOuterSpace x) →
      OrganizationalContact.XmlOk (OrganizationalContact.new n e) ∧
        OrganizationalContact.willWrite (OrganizationalContact.new n e) = true := by
    intro n e hn he
    refine ⟨⟨?_, ?_, fun y hy => (by cases hy)⟩, rfl⟩
    · intro y hy; cases hy; exact normalized_trimmed hn
    · intro y hy
      have hy : e.map normalizedString = some y := hy
      cases e with
      | none => cases hy
      | some x => cases hy; exact normalized_trimmed (noOuterSpace_iff.mp (he x rfl))
  unfold parseAuthor at h
  split at h
  · rename_i name email hc
    dsimp only at h
    split at h
    · rename_i e
      split at h
      · rename_i he
        simp only [Option.some.injEq] at h
        subst h
        refine key _ _ (by rw [String.toList_ofList]; exact trimChars_tidy _) ?_
        intro x hx
        cases hx
        exact rt.mail _ he
      · cases h
    · simp only [Option.some.injEq] at h
      subst h
      exact key _ _ (by rw [String.toList_ofList]; exact trimChars_tidy _) (fun x hx => by cases hx)
  · simp only [Option.some.injEq] at h
    subst h
    exact key _ _ (noOuterSpace_iff.mp ha) (fun x hx => by cases hx)

theorem timestamp_tidy {d : DateTime} (h : metadataTimestamp env = .ok d) : Trimmed d := by
  unfold metadataTimestamp at h
  split at h
  · cases h
  · rename_i now hn
    split at h
    · cases h; exact (rt.now _ hn).trimmed
    · split at h
      · cases h
      · split at h
        · cases h
        · rename_i d' hd
          split at h
          · cases h; exact (rt.unix _ _ hd).trimmed
          · cases h

/-- The texts of generated metadata that XML keeps. -/
structure TidyMetadata (m : Metadata) : Prop where
  timestamp : ∀ y, m.timestamp = some y → Trimmed y
  tools : ∀ y, m.tools = some y → ∃ t, y = .list [t] ∧ ∀ v, Tool.XmlOk v t
  authors : ∀ y, m.authors = some y → ∀ z ∈ y, OrganizationalContact.XmlOk z ∧
    OrganizationalContact.willWrite z = true
  component : ∀ y, m.component = some y → TidyComponent y ∧
    ∀ cs, y.components = some cs → ∀ z ∈ cs, TidyComponent z
  properties : ∀ y, m.properties = some y → ∀ z ∈ y, Property.XmlOk z

theorem createMetadata_tidy {g : SbomGenerator} {p : Package} {r : Metadata × TargetKinds}
    (hp : TidyPackage env p) (hc : ∀ t, g.config.target = some (.singleTarget t) → NoOuterSpace t)
    (h : createMetadata env g p = .ok r) : TidyMetadata r.1 := by
  obtain ⟨ts, top, props, h1, h2, h3, h4⟩ := createMetadata_ok h
  obtain ⟨top', subs, h5, h6, h7⟩ := createToplevel_ok h2
  have h7 : top = { top' with componentType := getClassification p, components := some subs } := h7
  rw [h4]
  constructor
  case timestamp => intro y hy; cases hy; exact timestamp_tidy rt h1
  case tools =>
    intro y hy
    cases hy
    refine ⟨_, rfl, fun v => ⟨?_, ?_, ?_, fun y hy => (by cases hy), fun _ y hy => (by cases hy)⟩⟩
    · intro y hy; cases hy; rfl
    · intro y hy; cases hy; rfl
    · intro y hy; cases hy; exact normalized_trimmed (noOuterSpace_iff.mp rt.toolVersion)
  case authors =>
    intro y hy z hz
    have hy : (if (createAuthors env p).isEmpty then none else some (createAuthors env p)) = some y := hy
    split at hy
    · cases hy
    · cases hy
      unfold createAuthors at hz
      obtain ⟨x, hx, hz⟩ := List.mem_filterMap.mp hz
      exact parseAuthor_tidy rt (hp.authors x hx).2 hz
  case component =>
    intro y hy
    have hy : some top = some y := hy
    cases hy
    have ht := createComponent_tidy rt hp h5
    rw [h7]
    refine ⟨⟨ht.name, ht.version, ht.description, ht.author, ht.purl, ht.hashes, ht.licenses,
      ht.externalReferences⟩, ?_⟩
    intro cs hcs
    cases hcs
    refine targetLoop_tidy rt hp.version ?_ (by simp) h6
    intro t htm
    unfold filterTargets at htm
    exact hp.targets t (List.mem_filter.mp htm).1
  case properties =>
    intro y hy z hz
    cases hy
    unfold targetProperties at h3
    split at h3
    · cases h3
    · rename_i t ht
      simp only [Except.ok.injEq] at h3
      subst h3
      simp only [List.mem_singleton] at hz
      subst hz
      exact ⟨normalized_trimmed (noOuterSpace_iff.mp (hc t ht))⟩
    · simp only [Except.ok.injEq] at h3
      subst h3
      simp only [List.mem_singleton] at hz
      subst hz
      exact ⟨rfl⟩

/-- The texts of a generated document that XML keeps. -/
structure TidyBom (b : Bom) : Prop where
  metadata : ∀ m, b.metadata = some m → TidyMetadata m
  components : ∀ l, b.components = some l → ∀ z ∈ l, TidyComponent z

theorem generated_tidy {md : CargoMetadata} {nodes : List Node} (hmd : MetadataOk md nodes)
    {config : SbomConfig} (hp : ∀ p ∈ md.packages, TidyPackage env p)
    (hc : ∀ t, config.target = some (.singleTarget t) → NoOuterSpace t)
    {sboms : List GeneratedSbom} (h : createSboms env md config = .ok sboms)
    {s : GeneratedSbom} {root : PackageId} (hs : At sboms s md.workspaceMembers root) :
    TidyBom s.bom := by
  obtain ⟨i, kinds, pr, pkg, comps, m, h1, h2, sh, sel⟩ := sbom_shape hmd h hs
  have hin : ∀ id p, (indexPackages md.packages).lookup id = some p → p ∈ md.packages := by
    intro id p hp
    have := mem_ofList (OMap.lookup_mem hp)
    simp only [List.mem_map, Prod.mk.injEq] at this
    obtain ⟨a, ha, _, rfl⟩ := this
    exact ha
  rw [sh.bom]
  refine ⟨?_, ?_⟩
  · intro m' hm'
    cases hm'
    exact createMetadata_tidy rt (hp _ (hin _ _ sh.pkgOk)) hc sh.mdOk
  · intro l hl z hz
    cases hl
    obtain ⟨p, hpm, hpc⟩ := sh.compsOk.mem_right hz
    have hpm : p ∈ md.packages := by
      obtain ⟨hp, _⟩ := List.mem_filter.mp hpm
      simp only [OMap.values, List.mem_map] at hp
      obtain ⟨kv, hkv, rfl⟩ := hp
      have := (OMap.lookup_iff_mem sel.sorted₁).2 (show (kv.1, kv.2) ∈ pr.1 from hkv)
      exact hin _ _ ((sel.pkgs _ _).1 this).1
    exact createComponent_tidy rt (hp p hpm) hpc

end

theorem TidyBom.written {debug : Bool} {s : GeneratedSbom} {ws : List FileWrite} (h : TidyBom s.bom)
    (hw : writeToFiles debug s = .ok ws) : ∀ w ∈ ws, TidyBom w.bom := by
  refine writeToFiles_induct hw h ?_
  intro m top cs c hm ht hcs hc
  have hg := h.metadata m hm
  obtain ⟨g1, g2⟩ := hg.component top ht
  have gc := g2 cs hcs c hc
  refine ⟨?_, h.components⟩
  intro m' hm'
  cases hm'
  refine ⟨hg.timestamp, hg.tools, hg.authors, ?_, hg.properties⟩
  intro y hy
  cases hy
  refine ⟨⟨gc.name, g1.version, g1.description, g1.author, gc.purl, g1.hashes, g1.licenses,
    g1.externalReferences⟩, ?_⟩
  intro y hy
  cases hy

theorem flat_xmlOkN {v : SpecVersion} {c : Component} (h : GenComponent c) (ht : TidyComponent c)
    (hc : c.components = none) (n : Nat) : Component.XmlOkN v (n + 1) c :=
  h.xmlOk ht v (fun y hy => by rw [hc] at hy; cases hy)

theorem GenBom.xmlOk {b : Bom} (h : GenBom b) (t : TidyBom b) (hl : 2 ≤ ReadLimit.limit)
    (v : SpecVersion) : Bom.XmlOk v b := by
  obtain ⟨n, hn⟩ : ∃ n, ReadLimit.limit = n + 2 := ⟨ReadLimit.limit - 2, by omega⟩
  obtain ⟨m, hm, hg⟩ := h.metadata
  obtain ⟨cs, hcs, hc⟩ := h.components
  have hmt := t.metadata m hm
  constructor
  case version => rw [h.version]; exact Nat.one_lt_two_pow (by decide)
  case metadata =>
    intro y hy
    rw [hm] at hy; cases hy
    obtain ⟨top, htop, hgt, hsub⟩ := hg.component
    obtain ⟨g1, g2⟩ := hmt.component top htop
    constructor
    · exact hmt.timestamp
    · intro y hy
      obtain ⟨x, rfl, hx⟩ := hmt.tools y hy
      refine ⟨fun _ => (by simp), ?_⟩
      intro z hz
      simp only [List.mem_singleton] at hz
      subst hz
      exact hx v
    · exact hmt.authors
    · intro y hy
      rw [htop] at hy; cases hy
      unfold Component.XmlOk
      rw [hn]
      exact hgt.xmlOk g1 v (fun y hy z hz =>
        flat_xmlOkN (hsub y hy z hz).1 (g2 y hy z hz) (hsub y hy z hz).2 n)
    · intro y hy; rw [hg.manufacture] at hy; cases hy
    · intro y hy; rw [hg.supplier] at hy; cases hy
    · intro y hy; rw [hg.licenses] at hy; cases hy
    · exact hmt.properties
    · intro _ y hy; rw [hg.lifecycles] at hy; cases hy
  case components =>
    intro y hy z hz
    rw [hcs] at hy; cases hy
    unfold Component.XmlOk
    rw [hn]
    exact flat_xmlOkN (hc z hz).1 (t.components cs hcs z hz) (hc z hz).2 _
  case services => intro y hy; rw [h.services] at hy; cases hy
  case externalReferences => intro y hy; rw [h.externalReferences] at hy; cases hy
  case compositions => intro y hy; rw [h.compositions] at hy; cases hy
  case properties => intro _ y hy; rw [h.properties] at hy; cases hy
  case vulnerabilities => intro _ y hy; rw [h.vulnerabilities] at hy; cases hy
  case signature => intro _; exact h.signature
  case annotations => intro _; exact h.annotations
  case formulation => intro _ y hy; rw [h.formulation] at hy; cases hy

end Cdx
