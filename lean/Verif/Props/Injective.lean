import Verif.Lemmas.Format.Between
import Verif.Props.Exact
import Verif.Props.Written

/-!
# C99: files tell documents apart
-/

namespace Cdx.Props

open Spec

section
variable [F32Format] [ReadLimit] {v w : SpecVersion} {b c : Bom}

/-- C99 (partial): two documents that JSON keeps (C77) are written as the same file only if it is of the
same version and they are the same as far as this version goes. Missing: documents that JSON does not
keep, for which this is false (`C99_collision`). -/
theorem C99_json_partial (hb : Bom.JsonOk v b) (hc : Bom.JsonOk w c) :
    b.outputJson v = c.outputJson w ↔ v = w ∧ b.at v = c.at w := by
  constructor
  · intro h
    obtain ⟨j, h1, h2, -⟩ := C44_json_partial hb
    obtain ⟨j', h1', h2', -⟩ := C44_json_partial hc
    rw [h1, h1'] at h
    cases h
    rw [h2] at h2'
    have e : b.at v = c.at w := Except.ok.inj h2'
    exact ⟨congrArg Bom.specVersion e, e⟩
  · rintro ⟨rfl, e⟩
    rw [← Bom.outputJson_both (Nat.le_refl _) b, e, Bom.outputJson_both (Nat.le_refl _) c]

/-- C99 (partial): the same for XML. -/
theorem C99_xml_partial (hb : Bom.XmlOk v b) (hc : Bom.XmlOk w c) :
    b.outputXml v = c.outputXml w ↔ v = w ∧ b.at v = c.at w := by
  constructor
  · intro h
    have e : v = w := by
      have hn : v.namespace = w.namespace := by
        unfold Bom.outputXml at h
        rw [if_pos hb.converts, if_pos hc.converts] at h
        exact congrArg Prod.fst (Except.ok.inj h)
      cases v <;> cases w <;> first | rfl | exact absurd hn (by decide)
    subst e
    obtain ⟨n, l, h1, h2⟩ := C41_xml_partial hb
    obtain ⟨n', l', h1', h2'⟩ := C41_xml_partial hc
    rw [h1, h1'] at h
    cases h
    rw [h2] at h2'
    exact ⟨rfl, Except.ok.inj h2'⟩
  · rintro ⟨rfl, e⟩
    rw [← Bom.outputXml_both (Nat.le_refl _) b, e, Bom.outputXml_both (Nat.le_refl _) c]

/-- C99 (partial): the formats agree on which documents are the same. -/
theorem C99_formats_partial (hb : Bom.JsonOk v b) (hc : Bom.JsonOk w c) (hb' : Bom.XmlOk v b) (hc' : Bom.XmlOk w c) :
    b.outputJson v = c.outputJson w ↔ b.outputXml v = c.outputXml w :=
  (C99_json_partial hb hc).trans (C99_xml_partial hb' hc').symm

end

section
variable [F32Format] [ReadLimit] {env₁ env₂ : Env} {E : VEnv} {md₁ md₂ : CargoMetadata} {config₁ config₂ : SbomConfig}
  {sboms₁ sboms₂ : List GeneratedSbom} {nodes₁ nodes₂ : List Node} {s₁ s₂ : GeneratedSbom} {root₁ root₂ : PackageId}
  {debug₁ debug₂ : Bool} {ws₁ ws₂ : List FileWrite}

/-- C99: any two JSON files that the tool writes, for any workspaces, packages and options, are the same
only if the SBOMs in them are the same, and so are the versions that were asked for. -/
theorem C99_generated (hl : 2 ≤ ReadLimit.limit)
    (hmd₁ : MetadataOk md₁ nodes₁) (h₁ : createSboms env₁ md₁ config₁ = .ok sboms₁)
    (hs₁ : At sboms₁ s₁ md₁.workspaceMembers root₁) (hw₁ : writeToFiles debug₁ s₁ = .ok ws₁)
    (hmd₂ : MetadataOk md₂ nodes₂) (h₂ : createSboms env₂ md₂ config₂ = .ok sboms₂)
    (hs₂ : At sboms₂ s₂ md₂.workspaceMembers root₂) (hw₂ : writeToFiles debug₂ s₂ = .ok ws₂) :
    ∀ w₁ ∈ ws₁, ∀ w₂ ∈ ws₂, w₁.format = .json → w₂.format = .json →
      writeFile E false w₁ = writeFile E false w₂ →
      { w₁.bom with specVersion := w₁.specVersion } = { w₂.bom with specVersion := w₂.specVersion } := by
  intro w₁ hm₁ w₂ hm₂ hf₁ hf₂ he
  obtain ⟨j, e, r, -⟩ := C59_json (E := E) hl hmd₁ h₁ hs₁ hw₁ w₁ hm₁ hf₁
  obtain ⟨j', e', r', -⟩ := C59_json (E := E) hl hmd₂ h₂ hs₂ hw₂ w₂ hm₂ hf₂
  rw [e, e'] at he
  cases he
  rw [r] at r'
  exact Except.ok.inj r'

/-- C99 (partial): the same for XML, if the texts of the packages have no outer white space and license
expressions and license files are not empty (C63). Missing: packages with such texts, which XML files do
not keep; the proof reads the files, and so says nothing about them. -/
theorem C99_generated_xml_partial (hl : 2 ≤ ReadLimit.limit)
    (hmd₁ : MetadataOk md₁ nodes₁) (rt₁ : RendersTrimmed env₁) (hp₁ : ∀ p ∈ md₁.packages, TidyPackage env₁ p)
    (hc₁ : ∀ t, config₁.target = some (.singleTarget t) → NoOuterSpace t)
    (h₁ : createSboms env₁ md₁ config₁ = .ok sboms₁)
    (hs₁ : At sboms₁ s₁ md₁.workspaceMembers root₁) (hw₁ : writeToFiles debug₁ s₁ = .ok ws₁)
    (hmd₂ : MetadataOk md₂ nodes₂) (rt₂ : RendersTrimmed env₂) (hp₂ : ∀ p ∈ md₂.packages, TidyPackage env₂ p)
    (hc₂ : ∀ t, config₂.target = some (.singleTarget t) → NoOuterSpace t)
    (h₂ : createSboms env₂ md₂ config₂ = .ok sboms₂)
    (hs₂ : At sboms₂ s₂ md₂.workspaceMembers root₂) (hw₂ : writeToFiles debug₂ s₂ = .ok ws₂) :
    ∀ w₁ ∈ ws₁, ∀ w₂ ∈ ws₂, w₁.format = .xml → w₂.format = .xml →
      writeFile E false w₁ = writeFile E false w₂ →
      { w₁.bom with specVersion := w₁.specVersion } = { w₂.bom with specVersion := w₂.specVersion } := by
  intro w₁ hm₁ w₂ hm₂ hf₁ hf₂ he
  have hg₁ := (generated_gen hmd₁ h₁ hs₁).written hw₁ w₁ hm₁
  have hg₂ := (generated_gen hmd₂ h₂ hs₂).written hw₂ w₂ hm₂
  have ok₁ := hg₁.xmlOk ((generated_tidy rt₁ hmd₁ hp₁ hc₁ h₁ hs₁).written hw₁ w₁ hm₁) hl w₁.specVersion
  have ok₂ := hg₂.xmlOk ((generated_tidy rt₂ hmd₂ hp₂ hc₂ h₂ hs₂).written hw₂ w₂ hm₂) hl w₂.specVersion
  have e : w₁.bom.outputXml w₁.specVersion = w₂.bom.outputXml w₂.specVersion := by
    obtain ⟨n₁, l₁, e₁, -⟩ := C41_xml_partial ok₁
    obtain ⟨n₂, l₂, e₂, -⟩ := C41_xml_partial ok₂
    unfold writeFile debugCheck serialise at he
    simp only [Bool.false_eq_true, if_false, hf₁, hf₂, e₁, e₂, bind, Except.bind] at he
    cases he
    rw [e₁, e₂]
  have := ((C99_xml_partial ok₁ ok₂).1 e).2
  rwa [hg₁.at_eq, hg₂.at_eq] at this

end

/-! ### Collisions and non-vacuity -/

attribute [local instance] Example.f32 Example.limit

/-- A document with one external reference of the given type. -/
def withReference (t : ExternalReferenceType) : Bom :=
  { Example.bom with components := none, externalReferences := some [{ externalReferenceType := t, url := .url "u", comment := none, hashes := none }] }

/-- C99 refuted: a type of references that is given as unknown, but has the name of a known one, makes a
different document that is written as the same file, in both formats. -/
theorem C99_collision : withReference (.unknownExternalReferenceType "vcs") ≠ withReference .vcs ∧
    (withReference (.unknownExternalReferenceType "vcs")).outputJson .v1_5 = (withReference .vcs).outputJson .v1_5 ∧
    (withReference (.unknownExternalReferenceType "vcs")).outputXml .v1_5 = (withReference .vcs).outputXml .v1_5 := by
  refine ⟨fun h => ?_, rfl, by decide +kernel⟩
  exact absurd (congrArg Bom.externalReferences h) (by decide)

/-- A document with something of everything satisfies the conditions in all versions; its files of
different versions and those of another document are different. -/
example : (∀ v, Bom.JsonOk v Example.bom ∧ Bom.XmlOk v Example.bom) ∧
    Example.bom.outputJson .v1_4 ≠ Example.bom.outputJson .v1_5 ∧
    Example.bom.outputXml .v1_4 ≠ Example.bom.outputXml .v1_5 := by
  refine ⟨fun v => ⟨Example.bom_jsonOk v, Example.bom_xmlOk v⟩, fun h => ?_, fun h => ?_⟩
  · exact nomatch ((C99_json_partial (Example.bom_jsonOk _) (Example.bom_jsonOk _)).1 h).1
  · exact nomatch ((C99_xml_partial (Example.bom_xmlOk _) (Example.bom_xmlOk _)).1 h).1

/-- The hypotheses of `C99_generated_xml_partial` are those of `C63_xml_partial`, which the example in
`Props/Written.lean` meets. A workspace for which two JSON files of different versions are written, which are different. -/
example : let config (v : SpecVersion) : SbomConfig :=
      { Example.config with format := some .json, specVersion := some v }
    MetadataOk Example.md Example.nodes ∧
    ∃ s₁ s₂ w₁ w₂, createSboms Example.env Example.md (config .v1_4) = .ok [s₁] ∧
      createSboms Example.env Example.md (config .v1_5) = .ok [s₂] ∧
      writeToFiles false s₁ = .ok [w₁] ∧ writeToFiles false s₂ = .ok [w₂] ∧
      w₁.format = .json ∧ w₂.format = .json ∧ w₁.specVersion ≠ w₂.specVersion :=
  ⟨Example.md_ok, _, _, _, _, rfl, rfl, rfl, rfl, rfl, rfl, nofun⟩

end Cdx.Props
