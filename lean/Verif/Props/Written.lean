import Verif.Lemmas.WrittenExact
import Verif.Model.WriteFile
import Verif.Props.Valid
import Verif.Props.Documents
import Verif.Props.ExactXml

/-!
# C59, C63, C64: written SBOMs can be read back
-/

namespace Cdx.Props

open Cdx.Spec

section
variable [F32Format] [ReadLimit] {env : Env} {E : VEnv} {md : CargoMetadata} {config : SbomConfig}
  {sboms : List GeneratedSbom} {nodes : List Node} {s : GeneratedSbom} {root : PackageId}
  {debug : Bool} {ws : List FileWrite}

/-- C59: every JSON file that a release build writes for a workspace can be read by the library, and
gives the SBOM that was generated, with the version of the specification that was asked for. -/
theorem C59_json (hl : 2 ≤ ReadLimit.limit) (hmd : MetadataOk md nodes)
    (h : createSboms env md config = .ok sboms) (hs : At sboms s md.workspaceMembers root)
    (hw : writeToFiles debug s = .ok ws) :
    ∀ w ∈ ws, w.format = .json → ∃ j, writeFile E false w = .ok (.json j) ∧
      Bom.parseJson j = .ok { w.bom with specVersion := w.specVersion } ∧
      Bom.parseJsonWith w.specVersion j = .ok { w.bom with specVersion := w.specVersion } := by
  intro w hwm hf
  have hg := (generated_gen hmd h hs).written hw w hwm
  obtain ⟨j, h1, h2, h3⟩ := C44_json_partial (hg.jsonOk hl w.specVersion)
  rw [hg.at_eq] at h2 h3
  refine ⟨j, ?_, h2, h3⟩
  unfold writeFile debugCheck serialise
  simp only [Bool.false_eq_true, if_false, hf, h1, bind, Except.bind]

/-- C63 (partial): the same for XML files, if the texts of the packages have no outer white space and
license expressions and license files are not empty. Missing: packages with such texts, for which
this is false (`C63_empty_license_file`, `C63_description_changed`). -/
theorem C63_xml_partial (hl : 2 ≤ ReadLimit.limit) (hmd : MetadataOk md nodes)
    (rt : RendersTrimmed env) (hp : ∀ p ∈ md.packages, TidyPackage env p)
    (hc : ∀ t, config.target = some (.singleTarget t) → NoOuterSpace t)
    (h : createSboms env md config = .ok sboms) (hs : At sboms s md.workspaceMembers root)
    (hw : writeToFiles debug s = .ok ws) :
    ∀ w ∈ ws, w.format = .xml → ∃ ns l, writeFile E false w = .ok (.xml ns l) ∧
      Bom.parseXmlWith w.specVersion (document ns l) =
        .ok { w.bom with specVersion := w.specVersion } := by
  intro w hwm hf
  have hg := (generated_gen hmd h hs).written hw w hwm
  have ht := (generated_tidy rt hmd hp hc h hs).written hw w hwm
  obtain ⟨ns, l, h1, h2⟩ := C41_xml_partial (hg.xmlOk ht hl w.specVersion)
  rw [hg.at_eq] at h2
  refine ⟨ns, l, ?_, h2⟩
  unfold writeFile debugCheck serialise
  simp only [Bool.false_eq_true, if_false, hf, h1, bind, Except.bind]

/-- C63: a generated SBOM is read back from XML without a change exactly if the texts in it that come
from manifests and from the options have no outer white space, and no named license and no text of a
license in it is empty. -/
theorem C63_exact (hl : 2 ≤ ReadLimit.limit) (hmd : MetadataOk md nodes) (rt : RendersTrimmed env)
    (h : createSboms env md config = .ok sboms) (hs : At sboms s md.workspaceMembers root)
    (hw : writeToFiles debug s = .ok ws) :
    ∀ w ∈ ws, w.format = .xml → ∃ ns l, writeFile E false w = .ok (.xml ns l) ∧
      (Bom.parseXmlWith w.specVersion (document ns l) =
        .ok { w.bom with specVersion := w.specVersion } ↔ BomTexts w.bom) := by
  intro w hwm hf
  have hg := (generated_gen hmd h hs).written hw w hwm
  have hsafe := (generated_safe rt hmd h hs).written hw w hwm
  have hcv := (hg.jsonOk hl w.specVersion).converts
  have hx : w.bom.outputXml w.specVersion =
      .ok (w.specVersion.namespace, w.bom.writeXml w.specVersion) := by
    unfold Bom.outputXml
    rw [if_pos hcv]
  refine ⟨w.specVersion.namespace, w.bom.writeXml w.specVersion, ?_, ?_⟩
  · unfold writeFile debugCheck serialise
    simp only [Bool.false_eq_true, if_false, hf, hx, bind, Except.bind]
  · have he := C78_exact (v := w.specVersion) (b := w.bom)
    rw [hg.at_eq] at he
    constructor
    · intro hr
      exact bomTexts_of_xmlOk hl (he.1 ⟨_, _, hx, hr⟩)
    · intro hk
      obtain ⟨ns, l, h1, h2⟩ := he.2 (hg.xmlOk (hsafe.tidy hg hk) hl w.specVersion)
      rw [hx] at h1
      cases h1
      exact h2

/-- C64: a release build writes every SBOM that it has generated: no file fails to be written because
of its contents, in whichever format and version. -/
theorem C64_release_writes (hl : 2 ≤ ReadLimit.limit) (hmd : MetadataOk md nodes)
    (h : createSboms env md config = .ok sboms) (hs : At sboms s md.workspaceMembers root)
    (hw : writeToFiles debug s = .ok ws) : ∀ w ∈ ws, ∃ c, writeFile E false w = .ok c := by
  intro w hwm
  have hg := (generated_gen hmd h hs).written hw w hwm
  have hcv := (hg.jsonOk hl w.specVersion).converts
  unfold writeFile debugCheck serialise Bom.outputJson Bom.outputXml
  simp only [Bool.false_eq_true, if_false, bind, Except.bind, hcv, if_true]
  cases w.format
  · exact ⟨_, rfl⟩
  · exact ⟨_, rfl⟩

/-- C64: the validation in a debug build does not change what is written exactly if no well-formed URL
of a package that the SBOM describes starts with `urn:cdx`; otherwise the debug build panics. -/
theorem C64_debug_exact (hl : 2 ≤ ReadLimit.limit) (hmd : MetadataOk md nodes) (ag : Agree env E)
    (rv : RendersValid env) (h : createSboms env md config = .ok sboms)
    (hs : At sboms s md.workspaceMembers root)
    (hform : ∀ n ∈ nodes, ∀ j : Nat, n.id ≠ root ++ " bin-target-" ++ toString j)
    (hw : writeToFiles debug s = .ok ws) :
    ∀ w ∈ ws, (writeFile E true w = writeFile E false w ↔
        ∀ p, Describes md s.bom p → ∀ u, some u ∈ urlFields p → env.uriValid u = true →
          ¬ ∃ r, u = "urn:cdx" ++ r) ∧
      (writeFile E true w ≠ writeFile E false w → ∃ m, writeFile E true w = .error (.panic m)) := by
  intro w hwm
  have hv : w.bom.specVersion = .v1_3 := by
    obtain ⟨i, kinds, pr, pkg, comps, m, h1, h2, sh, sel⟩ := sbom_shape hmd h hs
    have hb : s.bom.specVersion = .v1_3 := by rw [sh.bom]
    exact writeToFiles_induct (P := fun b => b.specVersion = .v1_3) hw hb (fun _ _ _ _ _ _ _ _ => hb) w hwm
  have hx := C57_written_exact hmd ag rv h hs hform debug ws hw w hwm w.bom.specVersion
  have hiff : (∀ p, Describes md s.bom p → LinksOk env w.bom.specVersion p) ↔
      ∀ p, Describes md s.bom p → ∀ u, some u ∈ urlFields p → env.uriValid u = true →
          ¬ ∃ r, u = "urn:cdx" ++ r := by
    rw [hv]
    refine forall_congr' fun p => forall_congr' fun _ => forall_congr' fun u => forall_congr' fun _ =>
      forall_congr' fun _ => ⟨fun h hr => absurd (h hr).1 (by decide), fun h hr => absurd hr h⟩
  obtain ⟨c, hc⟩ := C64_release_writes (E := E) hl hmd h hs hw w hwm
  obtain ⟨r, hr⟩ := (Elem.good E w.bom.specVersion (.bom w.bom)).1
  have hr : Bom.validateVersion E w.bom.specVersion w.bom = .ok r := hr
  rw [hiff, hr] at hx
  rw [← hx]
  have hfalse : writeFile E false w = serialise w := rfl
  cases r with
  | nil =>
    have htrue : writeFile E true w = serialise w := by
      unfold writeFile debugCheck Bom.validate
      simp only [if_true, hr, bind, Except.bind, VResult.hasErrors, List.isEmpty_nil, Bool.not_true,
        Bool.false_eq_true, if_false]
    rw [htrue, hfalse]
    exact ⟨⟨fun _ => rfl, fun _ => rfl⟩, fun hne => absurd rfl hne⟩
  | cons e r =>
    have htrue : writeFile E true w = .error (.panic "The generated SBOM failed validation") := by
      unfold writeFile debugCheck Bom.validate
      simp only [if_true, hr, bind, Except.bind, VResult.hasErrors, List.isEmpty_cons, Bool.not_false]
    rw [htrue, hc]
    exact ⟨⟨fun h => (nomatch h), fun h => (nomatch Except.ok.inj h)⟩, fun _ => ⟨_, rfl⟩⟩

/-- C64 (partial): the validation in a debug build does not change what is written, if no URL of a
package starts with `urn:cdx`. Missing: packages with such a URL, for which the debug build panics
(`C64_debug_panics`). -/
theorem C64_debug_partial (hmd : MetadataOk md nodes) (ag : Agree env E) (rv : RendersValid env)
    (hn : ∀ p ∈ md.packages, NoBomLinks p) (h : createSboms env md config = .ok sboms)
    (hs : At sboms s md.workspaceMembers root)
    (hform : ∀ n ∈ nodes, ∀ j : Nat, n.id ≠ root ++ " bin-target-" ++ toString j)
    (hw : writeToFiles debug s = .ok ws) :
    ∀ w ∈ ws, writeFile E true w = writeFile E false w := by
  intro w hwm
  have := C57_written_valid_partial hmd ag rv hn h hs hform debug ws hw w hwm w.bom.specVersion
  unfold writeFile debugCheck serialise Bom.validate
  simp only [if_true, this, bind, Except.bind, VResult.hasErrors, List.isEmpty_nil, Bool.not_true,
    Bool.false_eq_true, if_false]

end

/-! ## Examples and failing cases -/

/-- The environment of the example, with libraries that accept and render only texts without outer
white space. -/
def tidyEnv : Env :=
  { Example.env with
    uriValid := fun s => s == "http://docs", emailValid := fun s => s == "jo@example.org",
    purlRender := fun _ _ _ _ => some "pkg:cargo/x" }

/-- Non-vacuity: the example meets the hypotheses of `C63_xml_partial`. -/
example : MetadataOk Example.md Example.nodes ∧ RendersTrimmed tidyEnv ∧
    (∀ p ∈ Example.md.packages, TidyPackage tidyEnv p) ∧
    (∀ t, Example.config.target = some (.singleTarget t) → NoOuterSpace t) ∧
    ∃ s w, createSboms tidyEnv Example.md Example.config = .ok [s] ∧
      writeToFiles false s = .ok [w] ∧ w.format = .xml := by
  have key : ∀ s : String, (s.toList.head?.all (fun c => !xmlSpace c) &&
      s.toList.getLast?.all (fun c => !xmlSpace c)) = true → NoOuterSpace s := by
    intro s hs
    refine noOuterSpace_iff.mpr ?_
    intro c hc
    simp only [Bool.and_eq_true] at hs
    rcases hc with hc | hc
    · have := hs.1; rw [hc] at this; simpa using this
    · have := hs.2; rw [hc] at this; simpa using this
  refine ⟨Example.md_ok, ?_, ?_, ?_, ⟨_, _, rfl, rfl, rfl⟩⟩
  · refine ⟨?_, ?_, ?_, ?_, ?_, ?_⟩
    · intro u hu; rw [of_decide_eq_true hu]; exact key _ (by decide)
    · intro u hu; rw [of_decide_eq_true hu]; exact key _ (by decide)
    · intro _ _ _ _ p hp; cases hp; exact key _ (by decide)
    · intro d hd; cases hd; exact key _ (by decide)
    · intro i d hd
      change (if i = 0 then some "1970-01-01T00:00:00Z" else none) = some d at hd
      split at hd
      · cases hd; exact key _ (by decide)
      · cases hd
    · exact key _ (by decide)
  · have hpkg : ∀ i ∈ ["z", "t", "c", "b", "a"], TidyPackage tidyEnv (Example.pkg i) := by
      intro i _
      refine ⟨key "1.0.0" (by decide), fun d hd => (by cases hd), fun a ha => (by cases ha),
        fun d hd => (by cases hd), fun f _ hf => (by cases hf), fun t ht => (by cases ht)⟩
    intro p hp
    have hp : p ∈ Example.rootPkg :: (["z", "t", "c", "b", "a"].map Example.pkg) := hp
    rcases List.mem_cons.mp hp with rfl | hp
    · refine ⟨key _ (by decide), fun d hd => (by cases hd), ?_, ?_, fun f hf => (by cases hf), ?_⟩
      · intro a ha
        have : a ∈ ["Jo Doe <jo@example.org>", "X <bad>"] := ha
        simp only [List.mem_cons, List.not_mem_nil, or_false] at this
        rcases this with rfl | rfl
        · exact ⟨by decide, key _ (by decide)⟩
        · exact ⟨by decide, key _ (by decide)⟩
      · intro l hl
        cases hl
        exact ⟨by decide, key _ (by decide), by decide, by decide⟩
      · intro t ht
        simp only [Example.rootPkg, List.mem_cons, List.not_mem_nil, or_false] at ht
        rcases ht with rfl | rfl | rfl <;> exact key _ (by decide)
    · obtain ⟨i, hi, rfl⟩ := List.mem_map.mp hp
      exact hpkg i hi
  · intro t ht
    cases ht
    exact key _ (by decide)

/-- A workspace with one package that has an empty license file. -/
def emptyFileMd : CargoMetadata where
  packages := [{ id := "p", name := "p", version := "1.0.0", licenseFile := some ["w", "EMPTY"],
                 manifestPath := ["w", "Cargo.toml"] }]
  workspaceMembers := ["p"]
  resolve := some [{ id := "p", deps := [], dependencies := [] }]
  workspaceRoot := ["w"]

/-- Its environment. -/
def emptyFileEnv : Env := { Example.env with readFile := fun _ => some "" }

/-- A workspace with one package whose description ends with a line end. -/
def blankMd : CargoMetadata where
  packages := [{ id := "p", name := "p", version := "1.0.0", description := some "text\n",
                 manifestPath := ["w", "Cargo.toml"] }]
  workspaceMembers := ["p"]
  resolve := some [{ id := "p", deps := [], dependencies := [] }]
  workspaceRoot := ["w"]

/-- The configuration of the example, for XML. -/
def xmlConfig : SbomConfig := { Example.config with format := some .xml }

section
variable [F32Format] [ReadLimit]

/-- Generating, writing as XML and reading back one SBOM: the description of the described component
before and after, `none` if the file cannot be read. -/
def throughXml (env : Env) (md : CargoMetadata) : Option (Option String × Option (Option String)) :=
  match createSboms env md xmlConfig with
  | .ok [s] => match writeToFiles false s with
    | .ok [w] => match writeFile exampleEnv false w with
      | .ok (.xml ns l) => match Bom.parseXmlWith w.specVersion (document ns l) with
        | .ok b => some ((topComponent s.bom).bind (·.description), some ((topComponent b).bind (·.description)))
        | .error _ => some ((topComponent s.bom).bind (·.description), none)
      | _ => none
    | _ => none
  | _ => none

theorem throughXml_some {env : Env} {md : CargoMetadata} {x : Option String} {y : Option (Option String)}
    (h : throughXml env md = some (x, y)) :
    ∃ s w ns l, createSboms env md xmlConfig = .ok [s] ∧ writeToFiles false s = .ok [w] ∧
      writeFile exampleEnv false w = .ok (.xml ns l) ∧ (topComponent s.bom).bind (·.description) = x ∧
      ((∃ b, Bom.parseXmlWith w.specVersion (document ns l) = .ok b ∧
        y = some ((topComponent b).bind (·.description))) ∨
       (∃ e, Bom.parseXmlWith w.specVersion (document ns l) = .error e ∧ y = none)) := by
  unfold throughXml at h
  split at h
  · split at h
    · split at h
      · split at h
        · cases h; exact ⟨_, _, _, _, ‹_›, ‹_›, ‹_›, rfl, .inl ⟨_, ‹_›, rfl⟩⟩
        · cases h; exact ⟨_, _, _, _, ‹_›, ‹_›, ‹_›, rfl, .inr ⟨_, ‹_›, rfl⟩⟩
      · cases h
    · cases h
  · cases h

end

attribute [local instance] Example.f32 Example.limit in
/-- C63 refuted: with an empty license file the XML file cannot be read back. -/
theorem C63_empty_license_file : ∃ s w ns l e, createSboms emptyFileEnv emptyFileMd xmlConfig = .ok [s] ∧
    writeToFiles false s = .ok [w] ∧ writeFile exampleEnv false w = .ok (.xml ns l) ∧
    Bom.parseXmlWith w.specVersion (document ns l) = .error e := by
  have h : throughXml emptyFileEnv emptyFileMd = some (none, none) := by decide +kernel
  obtain ⟨s, w, ns, l, h1, h2, h3, -, ⟨b, -, h5⟩ | ⟨e, h4, -⟩⟩ := throughXml_some h
  · cases h5
  · exact ⟨s, w, ns, l, e, h1, h2, h3, h4⟩

attribute [local instance] Example.f32 Example.limit in
/-- C63 refuted: a blank at the end of a description is lost in an XML file. -/
theorem C63_description_changed : ∃ s w ns l b, createSboms Example.env blankMd xmlConfig = .ok [s] ∧
    writeToFiles false s = .ok [w] ∧ writeFile exampleEnv false w = .ok (.xml ns l) ∧
    Bom.parseXmlWith w.specVersion (document ns l) = .ok b ∧
    (topComponent s.bom).bind (·.description) = some "text " ∧
    (topComponent b).bind (·.description) = some "text" := by
  have h : throughXml Example.env blankMd = some (some "text ", some (some "text")) := by decide +kernel
  obtain ⟨s, w, ns, l, h1, h2, h3, h4, ⟨b, h5, h6⟩ | ⟨e, -, h5⟩⟩ := throughXml_some h
  · exact ⟨s, w, ns, l, b, h1, h2, h3, h5, h4, (Option.some.inj h6).symm⟩
  · cases h5

attribute [local instance] Example.f32 Example.limit in
/-- C64 refuted: a debug build panics for a package whose home page starts with `urn:cdx`. -/
theorem C64_debug_panics : ∃ s w m, createSboms linkEnv linkMd Example.config = .ok [s] ∧
    writeToFiles true s = .ok [w] ∧
    writeFile { exampleEnv with uriOk := linkEnv.uriValid } true w = .error (.panic m) := by
  have h : (match createSboms linkEnv linkMd Example.config with
      | .ok [s] => match writeToFiles true s with
        | .ok [w] => match writeFile { exampleEnv with uriOk := linkEnv.uriValid } true w with
          | .error (.panic _) => true
          | _ => false
        | _ => false
      | _ => false) = true := by decide +kernel
  split at h
  · split at h
    · split at h
      · exact ⟨_, _, _, ‹_›, ‹_›, ‹_›⟩
      · cases h
    · cases h
  · cases h

attribute [local instance] Example.f32 Example.limit in
/-- Non-vacuity: files are written for the example, as JSON and as XML. -/
example : 2 ≤ ReadLimit.limit ∧ ∀ f ∈ [Format.json, .xml],
    ∃ s w, createSboms Example.env Example.md { Example.config with format := some f } = .ok [s] ∧
      writeToFiles false s = .ok [w] ∧ w.format = f := by
  refine ⟨by decide, ?_⟩
  intro f hf
  simp only [List.mem_cons, List.not_mem_nil, or_false] at hf
  rcases hf with rfl | rfl <;> exact ⟨_, _, rfl, rfl, rfl⟩

end Cdx.Props
