import Verif.Lemmas.Conforming.Generated
import Verif.Lemmas.Conforming.Refute
import Verif.Lemmas.Accepts.Basic
import Verif.Props.Arrangement

/-!
# C86: the XML documents that are written are valid against the schema of the format
-/

namespace Cdx.Props

open Cdx.Spec Cdx.Conforming

section
variable [F32Format]

/-- C86 (partial): in every XML document that is written, every element is valid: it has the child
elements that its type in the format has, in that order and number, a text of that type, and the
attributes that it needs and no others. Missing: the elements that `Departs` lists; `C86_fails` shows
that they are not valid. -/
theorem C86_written_partial (hdec : DecimalsShown) {b : Bom} {v : SpecVersion} {ns : String} {w : List WEvent}
    (h : b.outputXml v = .ok (ns, w)) :
    ∃ root, IsRoot v root ∧ written root = w ∧
      Throughout (fun t attrs content => Departs v t attrs content ∨ ValidElement v t attrs content) v .bom root := by
  have hw : b.converts v = true ∧ w = b.writeXml v := by
    unfold Bom.outputXml at h
    cases hc : b.converts v <;> simp [hc] at h
    exact ⟨rfl, h.2.symm⟩
  obtain ⟨hc, rfl⟩ := hw
  haveI : Decimals := ⟨hdec⟩
  have key : ∃ root, IsRoot v root ∧ written root = b.writeXml v ∧ Throughout (Meets True v) v .bom root := by
    cases v
    · exact V1_3.bom_root b hc
    · exact V1_4.bom_root b
    · exact V1_5.bom_root b
  obtain ⟨root, hr, hw, ht⟩ := key
  exact ⟨root, hr, hw, throughout_mono (fun _ _ _ h => h.imp And.right id) _ _ ht⟩

end

section
variable [F32Format] {env : Env} {E : VEnv} {md : CargoMetadata} {config : SbomConfig}
  {sboms : List GeneratedSbom} {nodes : List Node} {s : GeneratedSbom} {root : PackageId}
  {debug : Bool} {ws : List FileWrite}

/-- C86: every XML file that `cargo cyclonedx` writes for a workspace is valid. -/
theorem C86_generated (hmd : MetadataOk md nodes) (h : createSboms env md config = .ok sboms)
    (hs : At sboms s md.workspaceMembers root) (hw : writeToFiles debug s = .ok ws) {check : Bool} :
    ∀ w ∈ ws, ∀ ns l, writeFile E check w = .ok (.xml ns l) →
      ∃ root, IsRoot w.specVersion root ∧ written root = l ∧
        Throughout (ValidElement w.specVersion) w.specVersion .bom root := by
  intro w hwm ns l hx
  have hg := (generated_gen hmd h hs).written hw w hwm
  have hl : l = w.bom.writeXml w.specVersion := by
    unfold writeFile serialise Bom.outputXml Bom.outputJson at hx
    cases hd : debugCheck E check w.bom with
    | error e => rw [hd] at hx; cases hx
    | ok u =>
      rw [hd] at hx
      simp only [bind, Except.bind] at hx
      cases hf : w.format <;> cases hc : w.bom.converts w.specVersion <;> simp [hf, hc] at hx
      exact hx.2.symm
  have key : ∃ root, IsRoot w.specVersion root ∧ written root = w.bom.writeXml w.specVersion ∧
      Throughout (Meets False w.specVersion) w.specVersion .bom root := by
    cases w.specVersion
    · exact Conforming.Generated1_3.document hg
    · exact Conforming.Generated1_4.document hg
    · exact Conforming.Generated1_5.document hg
  obtain ⟨root, hr, hwr, ht⟩ := key
  exact ⟨root, hr, hl ▸ hwr, throughout_mono (fun _ _ _ h => h.elim (fun h => h.1.elim) id) _ _ ht⟩

end

/-! ### Documents that meet the hypotheses -/

attribute [local instance] Example.f32 in
example : DecimalsShown := fun x _ =>
  ⟨[], (showNat x.toNat).toList, [], .inl rfl, fun _ h => showNat_digit h, (fun _ h => by cases h), .inl
    ⟨fun h => showNat_ne _ (String.toList_eq_nil_iff.mp h), rfl⟩⟩

attribute [local instance] Example.f32 in
example : ∀ v ∈ [SpecVersion.v1_3, .v1_4, .v1_5], ∃ ns w, Example.bom.outputXml v = .ok (ns, w) ∧ 150 ≤ w.length := by
  have h : ∀ v ∈ [SpecVersion.v1_3, .v1_4, .v1_5], (match Example.bom.outputXml v with
      | .ok (_, w) => decide (150 ≤ w.length)
      | .error _ => false) = true := by decide +kernel
  intro v hv
  have := h v hv
  split at this
  · exact ⟨_, _, ‹_›, of_decide_eq_true this⟩
  · cases this

attribute [local instance] Example.f32 in
/-- The example workspace gives an XML file. -/
example : MetadataOk Example.md Example.nodes ∧ ∃ s w ns l,
    createSboms tidyEnv Example.md Example.config = .ok [s] ∧
    (∃ root, At [s] s Example.md.workspaceMembers root) ∧ writeToFiles false s = .ok [w] ∧
    writeFile exampleEnv false w = .ok (.xml ns l) ∧ 30 ≤ l.length := by
  have h : (match createSboms tidyEnv Example.md Example.config with
    | .ok [s] => match writeToFiles false s with
      | .ok [w] => match writeFile exampleEnv false w with
        | .ok (.xml _ l) => decide (30 ≤ l.length)
        | _ => false
      | _ => false
    | _ => false) = true := by decide +kernel
  split at h
  · split at h
    · split at h
      · exact ⟨Example.md_ok, _, _, _, _, ‹_›, ⟨_, 0, rfl, rfl⟩, ‹_›, ‹_›, of_decide_eq_true h⟩
      · cases h
    · cases h
  · cases h

/-! ### Documents that are not valid when they are written -/

namespace Invalid

/-- Finite numbers printed by their bits, other ones as `NaN`. -/
@[instance_reducible] def f32 : F32Format where
  display x := if x.isFinite then showNat x.toNat else "NaN"
  parse s := (parseU32 s).map (BitVec.ofNat 32)
  ofNat n := BitVec.ofNat 32 n
  parse_display x h := by
    rw [if_pos h, parseU32_show x.isLt]
    simp
  no_space x c hc := by
    split at hc
    · exact digit_whitespace (showNat_digit hc)
    · revert c; decide
  nonempty x := by
    split
    · exact showNat_ne _
    · decide

open Misplaced

def inWorkflow (w : Workflow) : Bom :=
  { version := 1, specVersion := .v1_5, formulation := some [{ workflows := some [w] }] }

/-- An attachment with a content type and an encoding. -/
def attachment : Bom :=
  { version := 1, specVersion := .v1_5,
    components := some [{ aComponent with
      data := some { dataType := .other, contents := some { attachment := some ⟨"00", some "text/plain", some "base64"⟩ } } }] }

/-- A data flow with a name and a description. -/
def dataflow : Bom :=
  { version := 1, specVersion := .v1_5,
    services := some [{ aService with
      data := some (.serviceData [{ name := some "n", description := some "d",
                                    classification := { flow := .inbound, classification := "c" } }]) }] }

/-- A workflow without types of tasks. -/
def taskTypes : Bom := inWorkflow { bomRef := "w", uid := "u", taskTypes := [] }

/-- A workflow with a task. -/
def task : Bom :=
  inWorkflow { bomRef := "w", uid := "u", taskTypes := [.build],
               tasks := some [{ bomRef := "t", uid := "t", taskTypes := [.build] }] }

/-- A license expression beside a license. -/
def licenses : Bom :=
  { version := 1, specVersion := .v1_5,
    components := some [{ aComponent with
      licenses := some [.expression { expression := "MIT" }, .license { licenseIdentifier := .name "n" }] }] }

/-- A license expression with a reference. -/
def expression : Bom :=
  { version := 1, specVersion := .v1_5,
    components := some [{ aComponent with licenses := some [.expression { bomRef := some "r", expression := "MIT" }] }] }

/-- An organization with a reference. -/
def entity : Bom :=
  { version := 1, specVersion := .v1_5, metadata := some { supplier := some { bomRef := some "r", name := some "n" } } }

/-- A score that is not a number. -/
def number : Bom :=
  { version := 1, specVersion := .v1_5,
    vulnerabilities := some [{ vulnerabilityRatings := some [{ score := some 0x7fc00000 }] }] }

/-- A range of versions that the library does not know. -/
def version : Bom :=
  { version := 1, specVersion := .v1_5,
    vulnerabilities := some [{ vulnerabilityTargets := some [
      { bomRef := "c", versions := some [{ versionRange := .undefinedVersionRange "x", status := .affected }] }] }] }

/-- Documents that validation accepts, with the versions in which what is written is not valid. -/
def accepted : List (SpecVersion × Bom) :=
  [(.v1_5, lifecycles), (.v1_5, tools), (.v1_5, trustZone), (.v1_5, step), (.v1_5, workaround),
   (.v1_4, signature), (.v1_5, signature), (.v1_5, dataset), (.v1_5, resource), (.v1_5, attachment),
   (.v1_5, dataflow), (.v1_5, taskTypes), (.v1_5, task), (.v1_3, Invalid.licenses), (.v1_4, Invalid.licenses),
   (.v1_3, expression), (.v1_4, expression), (.v1_3, entity), (.v1_4, entity), (.v1_4, number), (.v1_5, number)]

/-- Documents that validation rejects, but that can be written. -/
def rejected : List (SpecVersion × Bom) :=
  [(.v1_3, contact), (.v1_4, contact), (.v1_5, Invalid.licenses), (.v1_4, Invalid.version), (.v1_5, Invalid.version)]

end Invalid

attribute [local instance] Invalid.f32 in
/-- C86: the deviations are real: each of these documents can be written, but what is written is not a
valid document, although validation accepts all those of the first list. There is one for each case of
`Departs`. -/
theorem C86_fails :
    (∀ x ∈ Invalid.accepted, x.2.validateVersion laxEnv x.1 = .ok []) ∧
    ∀ x ∈ Invalid.accepted ++ Invalid.rejected, ∃ ns w, x.2.outputXml x.1 = .ok (ns, w) ∧
      ∀ root, written root = w → ¬ Throughout (ValidElement x.1) x.1 .bom root := by
  constructor
  · have h : ∀ x ∈ Invalid.accepted, (match x.2.validateVersion laxEnv x.1 with
        | .ok l => l.isEmpty
        | .error _ => false) = true := by decide +kernel
    intro x hx
    have := h x hx
    split at this
    · rw [List.isEmpty_iff] at this
      subst this
      assumption
    · cases this
  · have h : ∀ x ∈ Invalid.accepted ++ Invalid.rejected, (match x.2.outputXml x.1 with
        | .ok (_, w) => !mayPassWritten x.1 w
        | .error _ => false) = true := by decide +kernel
    intro x hx
    have := h x hx
    split at this
    · rename_i ns w e
      exact ⟨ns, w, e, not_valid (by simpa using this)⟩
    · cases this

end Cdx.Props
