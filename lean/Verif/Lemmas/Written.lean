import Verif.Lemmas.Valid
import Verif.Lemmas.Base64
import Verif.Spec.Written
import Verif.Spec.Format.Bom

/-!
# Lemmas: generated SBOMs are kept by the file formats
-/

set_option linter.unusedSectionVars false
set_option linter.unusedSimpArgs false

namespace Cdx

open Spec

/-! ## Shape of the parts -/

/-- The parts of a license choice made by the generator. -/
def GenLicense (x : LicenseChoice) : Prop :=
  (∃ e, x = .expression { expression := e }) ∨ (∃ n, x = .license { licenseIdentifier := .name n }) ∨
    ∃ n c, x = .license { licenseIdentifier := .name n, text := some { encoding := some .base64, content := c } }

/-- A component made by the generator. -/
structure GenComponent (c : Component) : Prop where
  type : c.componentType = .library ∨ c.componentType = .application
  version : c.version ≠ none
  scope : ∀ y, c.scope = some y → y = .required ∨ y = .excluded
  hashes : ∀ y, c.hashes = some y → ∀ z ∈ y, z.alg = .sha256
  licenses : ∀ y, c.licenses = some y → ∀ z ∈ y, GenLicense z
  externalReferences : ∀ y, c.externalReferences = some y → ∀ z ∈ y,
    ∃ t u, t ∈ [ExternalReferenceType.documentation, .website, .other, .vcs] ∧
      z = ExternalReference.new t u
  supplier : c.supplier = none
  publisher : c.publisher = none
  group : c.group = none
  copyright : c.copyright = none
  cpe : c.cpe = none
  swid : c.swid = none
  pedigree : c.pedigree = none
  properties : c.properties = none
  evidence : c.evidence = none
  signature : c.signature = none
  modelCard : c.modelCard = none
  data : c.data = none
  single : ∀ y, c.licenses = some y → ∃ z, y = [z]

theorem ofUrl_stable (u : String) : Stable RefUri.display RefUri.ofUrl (RefUri.ofUrl u) := by
  unfold Stable RefUri.ofUrl
  split
  · show (if startsWith u "urn:cdx" = true then RefUri.bomLink u else RefUri.url u) = _
    rw [if_pos ‹_›]
  · show (if startsWith u "urn:cdx" = true then RefUri.bomLink u else RefUri.url u) = _
    rw [if_neg ‹_›]

section
variable [F32Format] [ReadLimit]

theorem GenLicense.jsonOk {x : LicenseChoice} (h : GenLicense x) (v : SpecVersion) :
    LicenseChoice.JsonOk v x := by
  rcases h with ⟨e, rfl⟩ | ⟨n, rfl⟩ | ⟨n, c, rfl⟩
  · exact trivial
  · exact ⟨fun y hy => (by cases hy), fun _ y hy => (by cases hy)⟩
  · refine ⟨fun y hy => ?_, fun _ y hy => by cases hy⟩
    cases hy
    exact ⟨fun y hy => by cases hy; rfl⟩

theorem GenLicense.at_eq {x : LicenseChoice} (h : GenLicense x) (v : SpecVersion) : x.at v = x := by
  rcases h with ⟨e, rfl⟩ | ⟨n, rfl⟩ | ⟨n, c, rfl⟩ <;> cases v <;> rfl

theorem map_same {α : Type} {f : α → α} {l : List α} (h : ∀ x ∈ l, f x = x) : l.map f = l := by
  induction l with
  | nil => rfl
  | cons a l ih =>
    rw [List.map_cons, h a List.mem_cons_self, ih (fun x hx => h x (List.mem_cons_of_mem _ hx))]

theorem GenComponent.jsonOk {c : Component} (h : GenComponent c) (v : SpecVersion)
    {sub : Component → Prop} (hs : ∀ y, c.components = some y → ∀ z ∈ y, sub z) :
    Component.JsonOkWith sub v c where
  version := fun _ => h.version
  componentType := by rcases h.type with e | e <;> rw [e] <;> rfl
  scope := fun y hy => by rcases h.scope y hy with rfl | rfl <;> rfl
  hashes := fun y hy z hz => ⟨by rw [h.hashes y hy z hz]; rfl⟩
  licenses := fun y hy z hz => (h.licenses y hy z hz).jsonOk v
  swid := fun y hy => by rw [h.swid] at hy; cases hy
  pedigree := fun y hy => by rw [h.pedigree] at hy; cases hy
  externalReferences := fun y hy z hz => by
    obtain ⟨t, u, ht, rfl⟩ := h.externalReferences y hy z hz
    refine ⟨?_, ofUrl_stable u, fun y hy => by cases hy⟩
    show Stable _ _ t
    simp only [List.mem_cons, List.not_mem_nil, or_false] at ht
    rcases ht with rfl | rfl | rfl | rfl <;> rfl
  components := hs
  evidence := fun y hy => by rw [h.evidence] at hy; cases hy
  signature := fun _ y hy => by rw [h.signature] at hy; cases hy
  modelCard := fun _ y hy => by rw [h.modelCard] at hy; cases hy
  data := fun _ y hy => by rw [h.data] at hy; cases hy

theorem Component.atOpt_same {v : SpecVersion} {o : Option (List Component)}
    (h : ∀ y, o = some y → ∀ z ∈ y, Component.at v z = z) : Component.atOpt v o = o := by
  cases o with
  | none => rfl
  | some l =>
    have hl := h l rfl
    show some (Component.atAll v l) = some l
    congr 1
    clear h
    induction l with
    | nil => rfl
    | cons a l ih =>
      show Component.at v a :: Component.atAll v l = _
      rw [hl a List.mem_cons_self, ih (fun x hx => hl x (List.mem_cons_of_mem _ hx))]

theorem GenComponent.at_eq {c : Component} (h : GenComponent c) (v : SpecVersion)
    (hs : ∀ y, c.components = some y → ∀ z ∈ y, Component.at v z = z) : c.at v = c := by
  have h1 := h.licenses
  have h2 := h.pedigree
  have h3 := h.evidence
  have h4 := h.signature
  have h5 := h.modelCard
  have h6 := h.data
  have h7 := Component.atOpt_same hs
  cases c
  simp only at h1 h2 h3 h4 h5 h6 h7
  subst h2 h3 h4 h5 h6
  rename_i lic _ _ _ _ _ _ _ _
  have h8 : lic.map (Licenses.at v) = lic := by
    cases lic with
    | none => rfl
    | some l =>
      show some (Licenses.at v l) = some l
      rw [Licenses.at, map_same (fun x hx => (h1 l rfl x hx).at_eq v)]
  show Component.mk _ _ _ _ _ _ _ _ _ _ _ _ _ _ _ _ _ _ _ _ _ _ _ _ _ _ = _
  rw [h7, h8]
  cases v <;> rfl

end

/-! ## The generator -/

theorem licenseOfString_gen {env : Env} {config : SbomConfig} {l : String} :
    GenLicense (licenseOfString env config l) := by
  unfold licenseOfString
  dsimp only
  split
  · rename_i e he
    have : e = { expression := e.expression } := by
      unfold SpdxExpression.parseLax SpdxExpression.tryFrom at he
      repeat' split at he
      all_goals cases he
      all_goals rfl
    exact .inl ⟨e.expression, by rw [← this]⟩
  · exact .inr (.inl ⟨_, rfl⟩)

theorem getLicenses_cases {env : Env} {config : SbomConfig} {p : Package} {y : Licenses}
    (h : getLicenses env config p = some y) :
    (∃ l, p.license = some l ∧ y = [licenseOfString env config l]) ∨
      (p.license = none ∧ ∃ f c, p.licenseFile = some f ∧ env.readFile f = some c ∧
        y = [.license { licenseIdentifier := .name (normalizedString "Unknown"), text := some (attachedText none (utf8Bytes c)) }]) := by
  unfold getLicenses at h
  cases hl : p.license with
  | some l =>
    simp only [hl, List.isEmpty_cons, Bool.false_eq_true, if_false, Option.some.injEq] at h
    exact .inl ⟨l, rfl, h.symm⟩
  | none =>
    cases hf : p.licenseFile with
    | none => simp [hl, hf] at h
    | some f =>
      cases hr : env.readFile f with
      | none => simp [hl, hf, hr] at h
      | some c =>
        simp only [hl, hf, hr, List.isEmpty_nil, if_true, List.nil_append, List.isEmpty_cons,
          Bool.false_eq_true, if_false, Option.some.injEq] at h
        exact .inr ⟨rfl, f, c, rfl, hr, h.symm⟩

theorem getLicenses_gen {env : Env} {config : SbomConfig} {p : Package} {y : Licenses}
    (h : getLicenses env config p = some y) : ∀ z ∈ y, GenLicense z := by
  rcases getLicenses_cases h with ⟨l, -, rfl⟩ | ⟨-, f, c, -, -, rfl⟩ <;> intro z hz <;>
    simp only [List.mem_singleton] at hz <;> subst hz
  · exact licenseOfString_gen
  · exact .inr (.inr ⟨_, _, rfl⟩)

theorem getExternalReferences_gen {env : Env} {p : Package} {y : ExternalReferences}
    (h : getExternalReferences env p = some y) : ∀ z ∈ y,
      ∃ t u, t ∈ [ExternalReferenceType.documentation, .website, .other, .vcs] ∧
        env.uriValid u = true ∧ z = ExternalReference.new t u := by
  unfold getExternalReferences at h
  dsimp only at h
  split at h
  · cases h
  · simp only [Option.some.injEq] at h
    subst h
    have key : ∀ (fs : List (ExternalReferenceType × Option String)) (acc : List ExternalReference),
        (∀ f ∈ fs, f.1 ∈ [ExternalReferenceType.documentation, .website, .other, .vcs]) →
        (∀ z ∈ acc, ∃ t u, t ∈ [ExternalReferenceType.documentation, .website, .other, .vcs] ∧
          env.uriValid u = true ∧ z = ExternalReference.new t u) →
        ∀ z ∈ fs.foldl (pushReference env) acc,
          ∃ t u, t ∈ [ExternalReferenceType.documentation, .website, .other, .vcs] ∧
            env.uriValid u = true ∧ z = ExternalReference.new t u := by
      intro fs
      induction fs with
      | nil => intro acc _ h; exact h
      | cons f fs ih =>
        intro acc hf h
        refine ih _ (fun g hg => hf g (List.mem_cons_of_mem _ hg)) ?_
        unfold pushReference
        split
        · split
          · intro z hz
            rcases List.mem_append.mp hz with hz | hz
            · exact h z hz
            · simp only [List.mem_singleton] at hz
              exact ⟨_, _, hf f List.mem_cons_self, ‹_›, hz⟩
          · exact h
        · exact h
    refine key _ _ ?_ (fun z hz => by cases hz)
    intro f hf
    simp only [referenceFields, List.mem_cons, List.not_mem_nil, or_false] at hf
    rcases hf with rfl | rfl | rfl | rfl <;> simp

theorem createComponent_gen {env : Env} {g : SbomGenerator} {p r : Package}
    {kinds : DependencyKindMap} {c : Component} (h : createComponent env g p r kinds = .ok c) :
    GenComponent c ∧ c.components = none := by
  obtain ⟨purl, -, rfl⟩ := createComponent_ok h
  refine ⟨?_, rfl⟩
  constructor
  case type => exact .inl rfl
  case version => exact fun h => by cases h
  case scope =>
    intro y hy
    cases hy
    unfold componentScope
    split
    · exact .inl rfl
    · exact .inr rfl
  case hashes =>
    intro y hy z hz
    have hy : getHashes g.crateHashes p = some y := hy
    unfold getHashes at hy
    split at hy
    · cases hy; simp only [List.mem_singleton] at hz; subst hz; rfl
    · cases hy
  case licenses => exact fun y hy => getLicenses_gen hy
  case single =>
    intro y hy
    rcases getLicenses_cases (y := y) hy with ⟨l, -, h⟩ | ⟨-, f, c, -, -, h⟩ <;> exact ⟨_, h⟩
  case externalReferences =>
    intro y hy z hz
    obtain ⟨t, u, h1, -, h2⟩ := getExternalReferences_gen hy z hz
    exact ⟨t, u, h1, h2⟩
  all_goals rfl

theorem GenComponent.retype {c : Component} (h : GenComponent c) {t : Classification}
    (ht : t = .library ∨ t = .application) (n : String) (p : Option Purl) (cs : Option (List Component)) :
    GenComponent { c with componentType := t, name := n, purl := p, components := cs } :=
  ⟨ht, h.version, h.scope, h.hashes, h.licenses, h.externalReferences, h.supplier, h.publisher,
    h.group, h.copyright, h.cpe, h.swid, h.pedigree, h.properties, h.evidence, h.signature,
    h.modelCard, h.data, h.single⟩

theorem new_gen {t : Classification} (ht : t = .library ∨ t = .application) (n w : String)
    (r : Option String) (p : Option Purl) : GenComponent { Component.new t n w r with purl := p } := by
  constructor
  case type => exact ht
  case version => exact fun h => by cases h
  all_goals first | rfl | exact fun y hy => by cases hy

theorem createSubcomponent_gen {env : Env} {g : SbomGenerator} {p : Package} {t : Target}
    {ty : Classification} {ref : String} {c : Component} (ht : ty = .library ∨ ty = .application)
    (h : createSubcomponent env g p t ty ref = .ok c) : GenComponent c ∧ c.components = none := by
  unfold createSubcomponent at h
  split at h
  · cases h
  · split at h
    · simp only [Res.bind_ok, Except.ok.injEq] at h
      obtain ⟨purl, -, rfl⟩ := h
      exact ⟨new_gen ht _ _ _ _, rfl⟩
    · simp only [Except.ok.injEq] at h
      subst h
      exact ⟨new_gen ht _ _ _ none, rfl⟩

theorem targetType_gen {t : Target} {ty : Classification} (h : targetType t = some ty) :
    ty = .library ∨ ty = .application := by
  unfold targetType at h
  repeat' split at h
  all_goals cases h
  · exact .inr rfl
  · exact .inl rfl
  · exact .inl rfl

theorem targetLoop_gen {env : Env} {g : SbomGenerator} {p : Package} {ref : String} {ts : List Target}
    {subs : List Component} {kinds : TargetKinds} {r : List Component × TargetKinds}
    (hs : ∀ c ∈ subs, GenComponent c ∧ c.components = none)
    (h : targetLoop env g p ref ts subs kinds = .ok r) :
    ∀ c ∈ r.1, GenComponent c ∧ c.components = none := by
  induction ts generalizing subs kinds with
  | nil => simp only [targetLoop, Except.ok.injEq] at h; subst h; exact hs
  | cons t ts ih =>
    unfold targetLoop at h
    split at h
    · exact ih hs h
    · rename_i ty hty
      simp only [Res.bind_ok] at h
      obtain ⟨sub, h1, h2⟩ := h
      refine ih ?_ h2
      intro c hc
      rcases List.mem_append.mp hc with hc | hc
      · exact hs c hc
      · simp only [List.mem_singleton] at hc
        subst hc
        exact createSubcomponent_gen (targetType_gen hty) h1

/-- Metadata made by the generator. -/
structure GenMetadata (m : Metadata) : Prop where
  tools : ∃ a b c, m.tools = some (.list [Tool.new a b c])
  authors : ∀ y, m.authors = some y → ∀ z ∈ y, z.bomRef = none
  component : ∃ top, m.component = some top ∧ GenComponent top ∧
    ∀ y, top.components = some y → ∀ z ∈ y, GenComponent z ∧ z.components = none
  manufacture : m.manufacture = none
  supplier : m.supplier = none
  licenses : m.licenses = none
  lifecycles : m.lifecycles = none

/-- A document made by the generator. -/
structure GenBom (b : Bom) : Prop where
  version : b.version = 1
  metadata : ∃ m, b.metadata = some m ∧ GenMetadata m
  components : ∃ l, b.components = some l ∧ ∀ z ∈ l, GenComponent z ∧ z.components = none
  services : b.services = none
  externalReferences : b.externalReferences = none
  compositions : b.compositions = none
  properties : b.properties = none
  vulnerabilities : b.vulnerabilities = none
  signature : b.signature = none
  annotations : b.annotations = none
  formulation : b.formulation = none

theorem createAuthors_refs {env : Env} {p : Package} : ∀ y,
    (if (createAuthors env p).isEmpty then none else some (createAuthors env p)) = some y →
      ∀ z ∈ y, z.bomRef = none := by
  intro y hy z hz
  split at hy
  · cases hy
  · cases hy
    simp only [createAuthors, List.mem_filterMap] at hz
    obtain ⟨a, -, h⟩ := hz
    unfold parseAuthor at h
    dsimp only at h
    repeat' split at h
    all_goals cases h
    all_goals rfl

theorem createMetadata_gen {env : Env} {g : SbomGenerator} {p : Package} {r : Metadata × TargetKinds}
    (h : createMetadata env g p = .ok r) : GenMetadata r.1 := by
  obtain ⟨ts, top, props, h1, h2, h3, h4⟩ := createMetadata_ok h
  obtain ⟨top', subs, h5, h6, h7⟩ := createToplevel_ok h2
  rw [h4]
  refine ⟨⟨_, _, _, rfl⟩, createAuthors_refs, ⟨_, rfl, ?_, ?_⟩, rfl, rfl, rfl, rfl⟩
  · have h7 : top = { top' with componentType := getClassification p, components := some subs } := h7
    rw [h7]
    refine (createComponent_gen h5).1.retype ?_ top'.name top'.purl (some subs)
    unfold getClassification
    split
    · exact .inr rfl
    · exact .inl rfl
  · have h7 : top = { top' with componentType := getClassification p, components := some subs } := h7
    rw [h7]
    intro y hy
    cases hy
    exact targetLoop_gen (by simp) h6

theorem GenBom.artifact {b : Bom} (h : GenBom b) {m : Metadata} {top c : Component}
    (hm : b.metadata = some m) (ht : m.component = some top) (hc : GenComponent c) :
    GenBom (artifactBom b m top c) := by
  obtain ⟨m', e, hg⟩ := h.metadata
  rw [hm] at e; cases e
  obtain ⟨top', e, hgt, hsub⟩ := hg.component
  rw [ht] at e; cases e
  refine ⟨h.version, ⟨_, rfl, ⟨hg.tools, hg.authors, ⟨_, rfl, hgt.retype hc.type c.name c.purl none, ?_⟩,
    hg.manufacture, hg.supplier, hg.licenses, hg.lifecycles⟩⟩, h.components, h.services,
    h.externalReferences, h.compositions, h.properties, h.vulnerabilities, h.signature,
    h.annotations, h.formulation⟩
  intro y hy
  cases hy

theorem generated_gen {env : Env} {md : CargoMetadata} {nodes : List Node} (hmd : MetadataOk md nodes)
    {config : SbomConfig} {sboms : List GeneratedSbom} (h : createSboms env md config = .ok sboms)
    {s : GeneratedSbom} {root : PackageId} (hs : At sboms s md.workspaceMembers root) :
    GenBom s.bom := by
  obtain ⟨i, kinds, pr, pkg, comps, m, h1, h2, sh, sel⟩ := sbom_shape hmd h hs
  rw [sh.bom]
  refine ⟨rfl, ⟨_, rfl, createMetadata_gen sh.mdOk⟩, ⟨_, rfl, ?_⟩, rfl, rfl, rfl, rfl, rfl, rfl, rfl, rfl⟩
  intro z hz
  obtain ⟨p, _, hpc⟩ := sh.compsOk.mem_right hz
  exact createComponent_gen hpc

/-- A property of documents that holds for what is generated and for what is made from it for the
artifacts holds for what is written. -/
theorem writeToFiles_induct {P : Bom → Prop} {debug : Bool} {s : GeneratedSbom} {ws : List FileWrite}
    (hw : writeToFiles debug s = .ok ws) (h0 : P s.bom)
    (h1 : ∀ m top cs c, s.bom.metadata = some m → m.component = some top → top.components = some cs →
      c ∈ cs → P (artifactBom s.bom m top c)) : ∀ w ∈ ws, P w.bom := by
  intro w hwm
  have hart : ∀ d arts, perArtifactSboms s.bom s.targetKinds d = .ok arts →
      artifactWrites debug s arts = .ok ws → P w.bom := by
    intro d arts g1 g2
    obtain ⟨x, hx, e⟩ := artifactWrites_mem g2 w hwm
    rw [e]
    unfold perArtifactSboms at g1
    split at g1
    · cases g1
    · rename_i m hm
      split at g1
      · cases g1
      · rename_i top ht
        split at g1
        · cases g1
        · rename_i cs hcs
          obtain ⟨c, hc, e'⟩ := artifactLoop_mem g1 x hx
          rw [e']
          exact h1 m top cs c hm ht hcs hc
  unfold writeToFiles at hw
  split at hw
  · simp only [Res.bind_ok, Except.ok.injEq] at hw
    obtain ⟨n, _, hw⟩ := hw
    subst hw
    simp only [List.mem_singleton] at hwm
    subst hwm
    exact h0
  · simp only [Res.bind_ok] at hw
    obtain ⟨arts, g1, g2⟩ := hw
    exact hart _ arts g1 g2

theorem GenBom.written {debug : Bool} {s : GeneratedSbom} {ws : List FileWrite} (h : GenBom s.bom)
    (hw : writeToFiles debug s = .ok ws) : ∀ w ∈ ws, GenBom w.bom := by
  refine writeToFiles_induct hw h ?_
  intro m top cs c hm ht hcs hc
  obtain ⟨m', e, hg⟩ := h.metadata
  rw [hm] at e; cases e
  obtain ⟨top', e, hgt, hsub⟩ := hg.component
  rw [ht] at e; cases e
  exact h.artifact hm ht (hsub cs hcs c hc).1

section
variable [F32Format] [ReadLimit]

theorem flat_jsonOkN {v : SpecVersion} {c : Component} (h : GenComponent c) (hc : c.components = none)
    (n : Nat) : Component.JsonOkN v (n + 1) c :=
  h.jsonOk v (fun y hy => by rw [hc] at hy; cases hy)

theorem GenBom.jsonOk {b : Bom} (h : GenBom b) (hl : 2 ≤ ReadLimit.limit) (v : SpecVersion) :
    Bom.JsonOk v b := by
  obtain ⟨n, hn⟩ : ∃ n, ReadLimit.limit = n + 2 := ⟨ReadLimit.limit - 2, by omega⟩
  obtain ⟨m, hm, hg⟩ := h.metadata
  obtain ⟨cs, hcs, hc⟩ := h.components
  constructor
  case version => rw [h.version]; exact Nat.one_lt_two_pow (by decide)
  case metadata =>
    intro y hy
    rw [hm] at hy; cases hy
    obtain ⟨ta, tb, tc, ht⟩ := hg.tools
    obtain ⟨top, htop, hgt, hsub⟩ := hg.component
    constructor
    · intro y hy
      rw [ht] at hy; cases hy
      intro x hx
      simp only [List.mem_singleton] at hx
      subst hx
      exact ⟨fun y hy => (by cases hy), fun _ y hy => (by cases hy)⟩
    · intro y hy
      rw [htop] at hy; cases hy
      unfold Component.JsonOk
      rw [hn]
      exact hgt.jsonOk v (fun y hy z hz => flat_jsonOkN (hsub y hy z hz).1 (hsub y hy z hz).2 n)
    · intro y hy; rw [hg.licenses] at hy; cases hy
    · intro _ y hy; rw [hg.lifecycles] at hy; cases hy
  case components =>
    intro y hy z hz
    rw [hcs] at hy; cases hy
    unfold Component.JsonOk
    rw [hn]
    exact flat_jsonOkN (hc z hz).1 (hc z hz).2 _
  case services => intro y hy; rw [h.services] at hy; cases hy
  case externalReferences => intro y hy; rw [h.externalReferences] at hy; cases hy
  case compositions => intro y hy; rw [h.compositions] at hy; cases hy
  case vulnerabilities => intro _ y hy; rw [h.vulnerabilities] at hy; cases hy
  case signature => intro _ y hy; rw [h.signature] at hy; cases hy
  case annotations => intro _ y hy; rw [h.annotations] at hy; cases hy
  case formulation => intro _ y hy; rw [h.formulation] at hy; cases hy

theorem flat_at {v : SpecVersion} {c : Component} (h : GenComponent c) (hc : c.components = none) :
    c.at v = c :=
  h.at_eq v (fun y hy => by rw [hc] at hy; cases hy)

theorem GenMetadata.at_eq {m : Metadata} (hg : GenMetadata m) (v : SpecVersion) : m.at v = m := by
  obtain ⟨ta, tb, tc, ht⟩ := hg.tools
  obtain ⟨top, htop, hgt, hsub⟩ := hg.component
  have h1 := hgt.at_eq v (fun y hy z hz => flat_at (hsub y hy z hz).1 (hsub y hy z hz).2)
  have h2 := hg.licenses
  have h3 := hg.lifecycles
  cases m
  simp only at ht htop h2 h3
  subst ht htop h2 h3
  unfold Metadata.at
  simp only [Option.map_some, h1, Option.map_none]
  cases v <;> rfl

theorem GenBom.at_eq {b : Bom} (h : GenBom b) (v : SpecVersion) : b.at v = { b with specVersion := v } := by
  obtain ⟨m, hm, hg⟩ := h.metadata
  obtain ⟨cs, hcs, hc⟩ := h.components
  have h1 := hg.at_eq v
  have h2 : cs.map (Component.at v) = cs := map_same (fun x hx => flat_at (hc x hx).1 (hc x hx).2)
  have h3 := h.services
  have h4 := h.compositions
  have h5 := h.properties
  have h6 := h.vulnerabilities
  have h7 := h.signature
  have h8 := h.annotations
  have h9 := h.formulation
  cases b
  simp only at hm hcs h3 h4 h5 h6 h7 h8 h9
  subst hm hcs h3 h4 h5 h6 h7 h8 h9
  unfold Bom.at
  simp only [Option.map_some, h1, h2, Option.map_none]
  cases v <;> rfl

end

end Cdx
