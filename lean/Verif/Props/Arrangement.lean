import Verif.Lemmas.Arranged.V1_3
import Verif.Lemmas.Arranged.V1_4
import Verif.Lemmas.Arranged.V1_5
import Verif.Lemmas.Arranged.Generated
import Verif.Props.Written
import Verif.Props.ExampleBom

/-!
# C83: the elements of XML documents and their order
-/

namespace Cdx.Props

open Cdx.Spec

section
variable [F32Format] {v : SpecVersion} {b : Bom} {ns : String} {w : List WEvent}

/-- C83: every document that is written as XML consists of the elements of `writtenElement`: each
element has only child elements and attributes that it may have, and its child elements come in the
order of the table. -/
theorem C83_written (h : b.outputXml v = .ok (ns, w)) : ArrangedDocument (writtenElement v) w := by
  unfold Bom.outputXml at h
  split at h
  · cases h
    cases v
    · exact V1_3.bom_arranged b
    · exact V1_4.bom_arranged b
    · exact V1_5.bom_arranged b
  · cases h

/-- C83: that table is the table of the format, except for these elements. -/
theorem C83_same (tag : String)
    (hc : tag ∉ ["metadata", "tools", "component", "service", "composition", "signature", "signers",
      "signer", "chain", "dataset", "step", "vulnerability", "source", "target", "resource",
      "resourceReference"])
    (ha : v = .v1_5 ∨ tag ∉ ["supplier", "manufacture", "provider", "organization", "contact",
      "individual", "author", "expression"]) : writtenElement v tag = formatElement v tag := by
  have h1 : ownChildren.lookup tag = none := by
    cases h : ownChildren.lookup tag with
    | none => rfl
    | some x =>
      have := lookup_key h
      have e : ownChildren.map (·.1) = ["metadata", "tools", "component", "service", "composition",
        "signature", "signers", "signer", "chain", "dataset", "step", "vulnerability", "source", "target",
        "resource", "resourceReference"] := by decide +kernel
      exact absurd (e ▸ this) hc
  have h2 : (groupsIn v ((ownAttributes.lookup tag).getD ((formatAttributes.lookup tag).getD []))).flatten =
      (groupsIn v ((formatAttributes.lookup tag).getD [])).flatten := by
    cases h : ownAttributes.lookup tag with
    | none => rfl
    | some x =>
      have hk := lookup_key h
      have e : ownAttributes.map (·.1) = ["supplier", "manufacture", "provider", "organization", "contact",
        "individual", "author", "expression"] := by decide +kernel
      rcases ha with rfl | ha
      · have : ∀ t ∈ ownAttributes.map (·.1),
            (groupsIn .v1_5 ((ownAttributes.lookup t).getD ((formatAttributes.lookup t).getD []))).flatten =
              (groupsIn .v1_5 ((formatAttributes.lookup t).getD [])).flatten := by decide +kernel
        have := this tag hk
        rwa [h] at this
      · exact absurd (e ▸ hk) ha
  unfold writtenElement formatElement
  rw [h1, h2]
  rfl

/-- C83 (partial): a document that is written as XML is arranged as the format has it, if it does not
have any of the child elements of `ownNestings` and none of the attributes of `ownAttributeUses`.
Missing: documents with these, which may differ from the format, see below. -/
theorem C83_format_partial (h : b.outputXml v = .ok (ns, w))
    (hn : ∀ q ∈ nestings [] w, q ∉ ownNestings)
    (ha : ∀ q ∈ attributeUses w, q ∉ ownAttributeUses v) : ArrangedDocument (formatElement v) w := by
  obtain ⟨attrs, body, rfl, h1, h2⟩ := C83_written h
  refine ⟨attrs, body, rfl, ?_, ?_⟩
  · rw [← C83_same "bom" (by decide) (.inr (by decide))]
    exact h1
  · simp only [nestings, attributeUses, attributeUses_append, List.mem_append, List.append_nil,
      List.headD_nil] at hn ha
    rw [nestings_append h2] at hn
    simp only [nestings, List.append_nil, List.mem_cons] at hn
    exact arranged_format h2 [] _ (written_covers v "bom") (fun q h => hn q (.inr h))
      (fun q h => ha q (.inr h))

end

section
variable [F32Format] {env : Env} {E : VEnv} {md : CargoMetadata} {config : SbomConfig}
  {sboms : List GeneratedSbom} {nodes : List Node} {s : GeneratedSbom} {root : PackageId}
  {debug : Bool} {ws : List FileWrite}

/-- C83: every XML file that `cargo cyclonedx` writes for a workspace is arranged as the format has
it. -/
theorem C83_generated (hmd : MetadataOk md nodes) (h : createSboms env md config = .ok sboms)
    (hs : At sboms s md.workspaceMembers root) (hw : writeToFiles debug s = .ok ws) {check : Bool} :
    ∀ w ∈ ws, ∀ ns l, writeFile E check w = .ok (.xml ns l) →
      ArrangedDocument (formatElement w.specVersion) l := by
  intro w hwm ns l hx
  have hg := (generated_gen hmd h hs).written hw w hwm
  have hl : l = w.bom.writeXml w.specVersion := by
    unfold writeFile serialise Bom.outputXml Bom.outputJson at hx
    cases hd : debugCheck E check w.bom with
    | error e => rw [hd] at hx; cases hx
    | ok u =>
      rw [hd] at hx
      simp only [bind, Except.bind] at hx
      cases hf : w.format <;> cases hc : w.bom.converts w.specVersion <;> simp [hf, hc] at hx
      exact hx.2.symm
  rw [hl]
  cases w.specVersion
  · exact Generated1_3.document hg
  · exact Generated1_4.document hg
  · exact Generated1_5.document hg

end

/-! ### Documents that meet the hypotheses -/

/-- A document with nearly everything, but without these child elements and attributes. -/
def inPlace : Bom :=
  let c := { Example.component with signature := none }
  { Example.bom with
      metadata := some { authors := some [{ name := some "Jo" }], component := some c, licenses := some Example.licenses }
      components := some [c]
      services := some [{ Example.service with trustZone := none }]
      vulnerabilities := some [{ Example.vulnerability with workaround := none }]
      formulation := some [{ components := some [c], workflows := some [{ Example.workflow with steps := none }] }] }

attribute [local instance] Example.f32 in
example : ∃ ns w, inPlace.outputXml .v1_5 = .ok (ns, w) ∧ 150 ≤ w.length ∧
    (∀ q ∈ nestings [] w, q ∉ ownNestings) ∧ ∀ q ∈ attributeUses w, q ∉ ownAttributeUses .v1_5 := by
  have h : (match inPlace.outputXml .v1_5 with
      | .ok (_, w) => decide (150 ≤ w.length) && (nestings [] w).all (fun q => !ownNestings.contains q) &&
          (attributeUses w).all (fun q => !(ownAttributeUses .v1_5).contains q)
      | .error _ => false) = true := by decide +kernel
  split at h
  · rename_i ns w e
    simp only [Bool.and_eq_true, decide_eq_true_eq, List.all_eq_true, Bool.not_eq_true',
      List.contains_eq_mem, decide_eq_false_iff_not] at h
    exact ⟨ns, w, e, h.1.1, h.1.2, h.2⟩
  · cases h

attribute [local instance] Example.f32 in
/-- The example workspace gives an XML file. -/
example : MetadataOk Example.md Example.nodes ∧ ∃ s w ns l,
    createSboms tidyEnv Example.md Example.config = .ok [s] ∧
    (∃ root, At [s] s Example.md.workspaceMembers root) ∧ writeToFiles false s = .ok [w] ∧
    writeFile exampleEnv false w = .ok (.xml ns l) := by
  have h : (match createSboms tidyEnv Example.md Example.config with
    | .ok [s] => match writeToFiles false s with
      | .ok [w] => match writeFile exampleEnv false w with
        | .ok (.xml _ _) => true
        | _ => false
      | _ => false
    | _ => false) = true := by decide +kernel
  split at h
  · split at h
    · split at h
      · exact ⟨Example.md_ok, _, _, _, _, ‹_›, ⟨_, 0, rfl, rfl⟩, ‹_›, ‹_›⟩
      · cases h
    · cases h
  · cases h

/-! ### Documents that differ from the format -/

namespace Misplaced

def inMetadata (m : Metadata) : Bom := { version := 1, specVersion := .v1_5, metadata := some m }

/-- Lifecycles come after the properties, not before the tools. -/
def lifecycles : Bom :=
  inMetadata { properties := some [⟨"n", "x"⟩], lifecycles := some [.phase .build] }

def aService : Service := { name := "s" }

def aComponent : Component := { componentType := .library, name := "c", version := some "1" }

/-- Services come before the components of the tools. -/
def tools : Bom := inMetadata { tools := some (.object (some [aService]) (some [aComponent])) }

/-- The trust zone comes after the properties, not before the data. -/
def trustZone : Bom :=
  { version := 1, specVersion := .v1_5,
    services := some [{ aService with properties := some [⟨"n", "x"⟩], trustZone := some "z" }] }

/-- The commands of a step come before its name. -/
def step : Bom :=
  { version := 1, specVersion := .v1_5,
    formulation := some [{ workflows := some [{ bomRef := "w", uid := "u", taskTypes := [.build],
                                                steps := some [{ name := some "n", commands := some [] }] }] }] }

/-- The workaround comes after the advisories. -/
def workaround : Bom :=
  { version := 1, specVersion := .v1_5,
    vulnerabilities := some [{ advisories := some [{ url := "u" }], workaround := some "w" }] }

/-- A signature is an element of the format itself. -/
def signature : Bom :=
  { version := 1, specVersion := .v1_5,
    components := some [{ aComponent with signature := some (.single { algorithm := .hs512, value := "v" }) }] }

/-- A reference to a dataset is inside a dataset. -/
def dataset : Bom :=
  { version := 1, specVersion := .v1_5,
    components := some [{ aComponent with
      modelCard := some { modelParameters := some { datasets := some [.reference "r"] } } }] }

/-- An external reference to a resource is called `reference`. -/
def resource : Bom :=
  { version := 1, specVersion := .v1_5,
    formulation := some [{ workflows := some [{ bomRef := "w", uid := "u", taskTypes := [.build],
                                                resourceReferences := some [.externalReference
                                                  { externalReferenceType := .website, url := .url "u" }] }] }] }

/-- A contact has an identifier although the version does not have it. -/
def contact : Bom :=
  { version := 1, specVersion := .v1_4, metadata := some { authors := some [{ bomRef := some "r", name := some "n" }] } }

end Misplaced

attribute [local instance] Example.f32 in
/-- C83: the deviations are real: each of these documents is written, but what is written is not
arranged as the format has it. -/
theorem C83_fails : ∀ x ∈ [(SpecVersion.v1_5, Misplaced.lifecycles), (.v1_5, Misplaced.tools),
      (.v1_5, Misplaced.trustZone), (.v1_5, Misplaced.step), (.v1_5, Misplaced.workaround),
      (.v1_4, Misplaced.signature), (.v1_5, Misplaced.signature), (.v1_5, Misplaced.dataset),
      (.v1_5, Misplaced.resource), (.v1_4, Misplaced.contact), (.v1_3, Misplaced.contact)],
    ∃ ns w, x.2.outputXml x.1 = .ok (ns, w) ∧ ¬ ArrangedDocument (formatElement x.1) w := by
  have h : ∀ x ∈ [(SpecVersion.v1_5, Misplaced.lifecycles), (.v1_5, Misplaced.tools),
      (.v1_5, Misplaced.trustZone), (.v1_5, Misplaced.step), (.v1_5, Misplaced.workaround),
      (.v1_4, Misplaced.signature), (.v1_5, Misplaced.signature), (.v1_5, Misplaced.dataset),
      (.v1_5, Misplaced.resource), (.v1_4, Misplaced.contact), (.v1_3, Misplaced.contact)],
      (match x.2.outputXml x.1 with
        | .ok (_, w) => !inOrder (formatElement x.1) [[["bom"]]] w
        | .error _ => false) = true := by decide +kernel
  intro x hx
  have := h x hx
  split at this
  · rename_i ns w e
    refine ⟨ns, w, e, fun ha => ?_⟩
    rw [arranged_document ha] at this
    cases this
  · cases this

end Cdx.Props
