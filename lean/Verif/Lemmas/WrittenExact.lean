import Verif.Lemmas.WrittenXml

/-!
# Lemmas: exactly which generated SBOMs are kept by XML
-/

set_option linter.unusedSectionVars false
set_option linter.unusedSimpArgs false

namespace Cdx

open Spec

variable [F32Format] [ReadLimit]

theorem dropWhile_head {p : Char → Bool} {l : List Char} {c : Char}
    (h : (l.dropWhile p).head? = some c) : p c = false := by
  induction l with
  | nil => cases h
  | cons a l ih =>
    rw [List.dropWhile_cons] at h
    split at h
    · exact ih h
    · cases h; rename_i hp; simpa using hp

theorem trimmed_iff {s : String} : Trimmed s ↔ NoOuterSpace s := by
  refine ⟨fun h => noOuterSpace_iff.mpr ?_, NoOuterSpace.trimmed⟩
  have h : String.ofList ((s.toList.dropWhile xmlSpace).reverse.dropWhile xmlSpace).reverse = s := h
  have h' := congrArg String.toList h
  rw [String.toList_ofList] at h'
  have hlast : ∀ c, s.toList.getLast? = some c → xmlSpace c = false := by
    intro c hc
    rw [← h', List.getLast?_reverse] at hc
    exact dropWhile_head hc
  intro c hc
  rcases hc with hc | hc
  · have hlen := congrArg List.length h'
    rw [List.length_reverse] at hlen
    have h1 : (s.toList.dropWhile xmlSpace).length ≤ s.toList.length :=
      (List.dropWhile_suffix _).length_le
    have h2 := (List.dropWhile_suffix (p := xmlSpace) (l := (s.toList.dropWhile xmlSpace).reverse)).length_le
    rw [List.length_reverse] at h2
    have h3 : s.toList.dropWhile xmlSpace = s.toList :=
      (List.dropWhile_suffix _).eq_of_length (by omega)
    rw [← h3] at hc
    exact dropWhile_head hc
  · exact hlast c hc

/-- The texts of a generated component that do not come from a manifest. -/
structure SafeComponent (c : Component) : Prop where
  purl : ∀ y, c.purl = some y → Trimmed y
  hashes : ∀ y, c.hashes = some y → ∀ z ∈ y, Trimmed z.content
  licenses : ∀ y, c.licenses = some y → ∀ x, .license x ∈ y → ∀ t, x.text = some t → Trimmed t.content
  externalReferences : ∀ y, c.externalReferences = some y → ∀ z ∈ y, Trimmed z.url.display

theorem SafeComponent.tidy {c : Component} (g : GenComponent c) (h : SafeComponent c)
    (k : ComponentTexts c) : TidyComponent c where
  name := (k.texts _ (by simp)).trimmed
  version := fun y hy => (k.texts y (by simp [hy])).trimmed
  description := fun y hy => (k.texts y (by simp [hy])).trimmed
  author := fun y hy => (k.texts y (by simp [hy])).trimmed
  purl := h.purl
  hashes := h.hashes
  licenses := fun y hy z hz v => by
    rcases g.licenses y hy z hz with ⟨e, rfl⟩ | ⟨n, rfl⟩ | ⟨n, t, rfl⟩
    · exact ⟨(k.expression y hy _ hz).trimmed⟩
    · obtain ⟨h1, h2⟩ := (k.license y hy _ hz).1 n rfl
      exact ⟨fun _ => rfl, ⟨h1.trimmed, h2⟩, fun y hy => (by cases hy), fun y hy => (by cases hy),
        fun _ y hy => (by cases hy)⟩
    · obtain ⟨h1, h2⟩ := (k.license y hy _ hz).1 n rfl
      refine ⟨fun _ => rfl, ⟨h1.trimmed, h2⟩, fun t ht => ?_, fun y hy => (by cases hy),
        fun _ y hy => (by cases hy)⟩
      cases ht
      exact ⟨fun y hy => (by cases hy; rfl), h.licenses y hy _ hz _ rfl, (k.license y hy _ hz).2 _ rfl⟩
  externalReferences := h.externalReferences

theorem texts_of_xmlOk {c : Component} {v : SpecVersion} {sub : Component → Prop}
    (h : Component.XmlOkWith sub v c) : ComponentTexts c where
  texts := by
    intro t ht
    simp only [List.mem_cons, List.not_mem_nil, or_false, Option.some.injEq] at ht
    rcases ht with rfl | ht | ht | ht
    · exact trimmed_iff.1 h.name
    · exact trimmed_iff.1 (h.version t ht.symm)
    · exact trimmed_iff.1 (h.description t ht.symm)
    · exact trimmed_iff.1 (h.author t ht.symm)
  expression := fun l hl e he => trimmed_iff.1 (h.licenses l hl _ he).expression
  license := fun l hl x hx => by
    have hx : License.XmlOk v x := h.licenses l hl _ hx
    refine ⟨fun n hn => ?_, fun t ht => (hx.text t ht).content.2⟩
    have := hx.licenseIdentifier
    rw [hn] at this
    exact ⟨trimmed_iff.1 this.1, this.2⟩

section
variable {env : Env} (rt : RendersTrimmed env)
include rt

theorem createComponent_safe {g : SbomGenerator} {p r : Package}
    {kinds : DependencyKindMap} {c : Component}
    (h : createComponent env g p r kinds = .ok c) : SafeComponent c := by
  obtain ⟨purl, hpu, rfl⟩ := createComponent_ok h
  constructor
  case purl => exact getPurl_trimmed rt hpu
  case hashes =>
    intro y hy z hz
    have hy : getHashes g.crateHashes p = some y := hy
    unfold getHashes at hy
    split at hy
    · cases hy
      simp only [List.mem_singleton] at hz
      subst hz
      refine TidyChars.trimmed ?_
      unfold toBomHash
      rw [String.toList_ofList]
      exact hexBytes_tidy _
    · cases hy
  case licenses =>
    intro y hy x hx t ht
    rcases getLicenses_cases hy with ⟨l, hl, rfl⟩ | ⟨hl, f, txt, hf, ht', rfl⟩ <;>
      simp only [List.mem_singleton] at hx
    · unfold licenseOfString at hx
      dsimp only at hx
      split at hx
      · cases hx
      · cases hx; cases ht
    · cases hx; cases ht
      refine TidyChars.trimmed ?_
      unfold attachedText
      rw [String.toList_ofList]
      exact .of_all (b64Encode_notSpace _)
  case externalReferences =>
    intro y hy z hz
    obtain ⟨t, u, -, h1, rfl⟩ := getExternalReferences_gen hy z hz
    have : (ExternalReference.new t u).url.display = u := by
      show (RefUri.ofUrl u).display = u
      unfold RefUri.ofUrl
      split <;> rfl
    rw [this]
    exact (rt.uri u h1).trimmed

theorem createSubcomponent_safe {g : SbomGenerator} {p : Package} {t : Target}
    {ty : Classification} {ref : String} {c : Component}
    (h : createSubcomponent env g p t ty ref = .ok c) : SafeComponent c := by
  have key : ∀ purl : Option Purl, (∀ y, purl = some y → Trimmed y) →
      SafeComponent { Component.new ty t.name p.version (some ref) with purl := purl } := by
    intro purl hpu
    exact ⟨hpu, fun y hy => (by cases hy), fun y hy => (by cases hy), fun y hy => (by cases hy)⟩
  unfold createSubcomponent at h
  split at h
  · cases h
  · split at h
    · simp only [Res.bind_ok, Except.ok.injEq] at h
      obtain ⟨purl, hpu, rfl⟩ := h
      exact key purl (getPurl_trimmed rt hpu)
    · simp only [Except.ok.injEq] at h
      subst h
      exact key none (fun y hy => by cases hy)

theorem targetLoop_safe {g : SbomGenerator} {p : Package} {ref : String} {ts : List Target}
    {subs : List Component} {kinds : TargetKinds} {r : List Component × TargetKinds}
    (hs : ∀ c ∈ subs, SafeComponent c)
    (h : targetLoop env g p ref ts subs kinds = .ok r) : ∀ c ∈ r.1, SafeComponent c := by
  induction ts generalizing subs kinds with
  | nil => simp only [targetLoop, Except.ok.injEq] at h; subst h; exact hs
  | cons t ts ih =>
    unfold targetLoop at h
    split at h
    · exact ih hs h
    · simp only [Res.bind_ok] at h
      obtain ⟨sub, h1, h2⟩ := h
      refine ih ?_ h2
      intro c hc
      rcases List.mem_append.mp hc with hc | hc
      · exact hs c hc
      · simp only [List.mem_singleton] at hc
        subst hc
        exact createSubcomponent_safe rt h1

theorem parseAuthor_safe {a : String} {c : OrganizationalContact}
    (h : parseAuthor env a = some c) : (∀ y, c.email = some y → Trimmed y) ∧ c.phone = none ∧
      OrganizationalContact.willWrite c = true := by
  have key : ∀ (n : String) (e : Option String), (∀ x, e = some x → NoOuterSpace x) →
      (∀ y, (OrganizationalContact.new n e).email = some y → Trimmed y) ∧
      (OrganizationalContact.new n e).phone = none ∧
        OrganizationalContact.willWrite (OrganizationalContact.new n e) = true := by
    intro n e he
    refine ⟨?_, rfl, rfl⟩
    intro y hy
    have hy : e.map normalizedString = some y := hy
    cases e with
    | none => cases hy
    | some x => cases hy; exact normalized_trimmed (noOuterSpace_iff.mp (he x rfl))
  unfold parseAuthor at h
  split at h
  · rename_i name email hc
    dsimp only at h
    split at h
    · rename_i e
      split at h
      · rename_i he
        simp only [Option.some.injEq] at h
        subst h
        refine key _ _ ?_
        intro x hx
        cases hx
        exact rt.mail _ he
      · cases h
    · simp only [Option.some.injEq] at h
      subst h
      exact key _ _ (fun x hx => by cases hx)
  · simp only [Option.some.injEq] at h
    subst h
    exact key _ _ (fun x hx => by cases hx)

/-- The texts of generated metadata that do not come from a manifest or the options. -/
structure SafeMetadata (m : Metadata) : Prop where
  timestamp : ∀ y, m.timestamp = some y → Trimmed y
  tools : ∀ y, m.tools = some y → ∃ t, y = .list [t] ∧ ∀ v, Tool.XmlOk v t
  authors : ∀ y, m.authors = some y → ∀ z ∈ y, (∀ y, z.email = some y → Trimmed y) ∧ z.phone = none ∧
    OrganizationalContact.willWrite z = true
  component : ∀ y, m.component = some y → SafeComponent y ∧
    ∀ cs, y.components = some cs → ∀ z ∈ cs, SafeComponent z

theorem createMetadata_safe {g : SbomGenerator} {p : Package} {r : Metadata × TargetKinds}
    (h : createMetadata env g p = .ok r) : SafeMetadata r.1 := by
  obtain ⟨ts, top, props, h1, h2, h3, h4⟩ := createMetadata_ok h
  obtain ⟨top', subs, h5, h6, h7⟩ := createToplevel_ok h2
  have h7 : top = { top' with componentType := getClassification p, components := some subs } := h7
  rw [h4]
  constructor
  case timestamp => intro y hy; cases hy; exact timestamp_tidy rt h1
  case tools =>
    intro y hy
    cases hy
    refine ⟨_, rfl, fun v => ⟨?_, ?_, ?_, fun y hy => (by cases hy), fun _ y hy => (by cases hy)⟩⟩
    · intro y hy; cases hy; rfl
    · intro y hy; cases hy; rfl
    · intro y hy; cases hy; exact normalized_trimmed (noOuterSpace_iff.mp rt.toolVersion)
  case authors =>
    intro y hy z hz
    have hy : (if (createAuthors env p).isEmpty then none else some (createAuthors env p)) = some y := hy
    split at hy
    · cases hy
    · cases hy
      unfold createAuthors at hz
      obtain ⟨x, hx, hz⟩ := List.mem_filterMap.mp hz
      exact parseAuthor_safe rt hz
  case component =>
    intro y hy
    have hy : some top = some y := hy
    cases hy
    have ht := createComponent_safe rt h5
    rw [h7]
    refine ⟨⟨ht.purl, ht.hashes, ht.licenses, ht.externalReferences⟩, ?_⟩
    intro cs hcs
    cases hcs
    exact targetLoop_safe rt (by simp) h6

/-- The texts of a generated document that do not come from a manifest or the options. -/
structure SafeBom (b : Bom) : Prop where
  metadata : ∀ m, b.metadata = some m → SafeMetadata m
  components : ∀ l, b.components = some l → ∀ z ∈ l, SafeComponent z

theorem generated_safe {md : CargoMetadata} {nodes : List Node} (hmd : MetadataOk md nodes)
    {config : SbomConfig}
    {sboms : List GeneratedSbom} (h : createSboms env md config = .ok sboms)
    {s : GeneratedSbom} {root : PackageId} (hs : At sboms s md.workspaceMembers root) :
    SafeBom s.bom := by
  obtain ⟨i, kinds, pr, pkg, comps, m, h1, h2, sh, sel⟩ := sbom_shape hmd h hs
  rw [sh.bom]
  refine ⟨?_, ?_⟩
  · intro m' hm'
    cases hm'
    exact createMetadata_safe rt sh.mdOk
  · intro l hl z hz
    cases hl
    obtain ⟨p, hpm, hpc⟩ := sh.compsOk.mem_right hz
    exact createComponent_safe rt hpc

end

theorem SafeBom.written {debug : Bool} {s : GeneratedSbom} {ws : List FileWrite} (h : SafeBom s.bom)
    (hw : writeToFiles debug s = .ok ws) : ∀ w ∈ ws, SafeBom w.bom := by
  refine writeToFiles_induct hw h ?_
  intro m top cs c hm ht hcs hc
  have hg := h.metadata m hm
  obtain ⟨g1, g2⟩ := hg.component top ht
  have gc := g2 cs hcs c hc
  refine ⟨?_, h.components⟩
  intro m' hm'
  cases hm'
  refine ⟨hg.timestamp, hg.tools, hg.authors, ?_⟩
  intro y hy
  cases hy
  refine ⟨⟨gc.purl, g1.hashes, g1.licenses, g1.externalReferences⟩, ?_⟩
  intro y hy
  cases hy

theorem SafeBom.tidy {b : Bom} (g : GenBom b) (h : SafeBom b) (k : BomTexts b) : TidyBom b := by
  obtain ⟨m, hm, hg⟩ := g.metadata
  obtain ⟨cs, hcs, hc⟩ := g.components
  obtain ⟨top, htop, hgt, hsub⟩ := hg.component
  have hsm := h.metadata m hm
  refine ⟨?_, fun l hl z hz => ?_⟩
  · intro m' hm'
    obtain rfl := Option.some.inj (hm.symm.trans hm')
    refine ⟨hsm.timestamp, hsm.tools, ?_, ?_, ?_⟩
    · intro y hy z hz
      obtain ⟨h1, h2, h3⟩ := hsm.authors y hy z hz
      exact ⟨⟨fun n hn => (k.authors m y hm hy z hz n hn).trimmed, h1,
        fun y hy => by rw [h2] at hy; cases hy⟩, h3⟩
    · intro y hy
      obtain rfl := Option.some.inj (htop.symm.trans hy)
      obtain ⟨h1, h2⟩ := hsm.component top htop
      exact ⟨h1.tidy hgt (k.top m top hm htop), fun l hl z hz =>
        (h2 l hl z hz).tidy (hsub l hl z hz).1 (k.inner m top l hm htop hl z hz)⟩
    · intro y hy z hz
      exact ⟨(k.target m y hm hy z hz).trimmed⟩
  · obtain rfl := Option.some.inj (hcs.symm.trans hl)
    exact (h.components cs hcs z hz).tidy (hc z hz).1 (k.components cs hcs z hz)

theorem bomTexts_of_xmlOk {b : Bom} {v : SpecVersion} (hl : 2 ≤ ReadLimit.limit) (h : Bom.XmlOk v b) :
    BomTexts b := by
  obtain ⟨n, hn⟩ : ∃ n, ReadLimit.limit = n + 2 := ⟨ReadLimit.limit - 2, by omega⟩
  have key : ∀ c : Component, Component.XmlOk v c → Component.XmlOkWith (Component.XmlOkN v (n + 1)) v c := by
    intro c hc
    unfold Component.XmlOk at hc
    rw [hn] at hc
    exact hc
  refine ⟨fun l hl c hc => texts_of_xmlOk (key c (h.components l hl c hc)), ?_, ?_, ?_, ?_⟩
  · intro m c hm hc
    exact texts_of_xmlOk (key c ((h.metadata m hm).component c hc))
  · intro m c l hm hc hl d hd
    exact texts_of_xmlOk ((key c ((h.metadata m hm).component c hc)).components l hl d hd)
  · intro m l hm hl a ha n hn
    exact trimmed_iff.1 (((h.metadata m hm).authors l hl a ha).1.name n hn)
  · intro m l hm hl q hq
    exact trimmed_iff.1 ((h.metadata m hm).properties l hl q hq).value

end Cdx
