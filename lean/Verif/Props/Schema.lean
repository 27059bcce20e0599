import Verif.Lemmas.Conforms.Generated
import Verif.Lemmas.SoundEval
import Verif.Lemmas.Format.Converts
import Verif.Model.WriteFile
import Verif.Props.Valid
import Verif.Props.ExampleBom

/-!
# C65, C66: written JSON documents conform to the JSON schema of CycloneDX
-/

namespace Cdx.Props

open Cdx.Spec

/-- C65: every JSON file that a release build writes for a workspace conforms to the JSON schema of
the version of the specification that was asked for. -/
theorem C65_generated_conforms [F32Format] {env : Env} {E : VEnv} {F : Formats} {md : CargoMetadata}
    {nodes : List Node} {config : SbomConfig} {sboms : List GeneratedSbom} {s : GeneratedSbom}
    {root : PackageId} {debug : Bool} {ws : List FileWrite} (fa : FormatsAgree env F)
    (hmd : MetadataOk md nodes) (hi : PlainIds md nodes)
    (h : createSboms env md config = .ok sboms) (hs : At sboms s md.workspaceMembers root)
    (hw : writeToFiles debug s = .ok ws) :
    ∀ w ∈ ws, w.format = .json →
      ∃ j, writeFile E false w = .ok (.json j) ∧ Conforms F w.specVersion j := by
  intro w hwm hf
  let : ReadLimit := ⟨2⟩
  have hg := (generated_gen hmd h hs).written hw w hwm
  have hsb : SchemaBom F w.bom := by
    have h0 := generated_schema fa hmd hi h hs
    exact writeToFiles_induct hw h0 (fun m top cs c hm ht _ _ => h0.artifact hm ht) w hwm
  have hc := (hg.jsonOk (Nat.le_refl 2) w.specVersion).converts
  refine ⟨w.bom.toJson w.specVersion, ?_, Bom.fits (hsb.sound hg)⟩
  unfold writeFile debugCheck serialise Bom.outputJson
  simp only [Bool.false_eq_true, if_false, hf, hc, if_true, bind, Except.bind]

/-- C66 (partial): a BOM all of whose elements are as the schema of the version asks is written as a
JSON document that conforms to the schema. Missing: BOMs that pass the validation of the library but
have other elements; many of them are written as documents that the schema rejects
(`C66_rejected`). -/
theorem C66_conforms_partial {F : Formats} {v : SpecVersion} {b : Bom} {j : Json}
    (hs : (Elem.bom (b.at v)).Sound F v) (h : b.outputJson v = .ok j) : Conforms F v j := by
  unfold Bom.outputJson at h
  split at h
  · cases h
    exact Bom.conforms hs
  · cases h

/-- A document that conforms to the schema is not rejected by it, so the two theorems above do say
that a validator accepts what is written. -/
theorem C66_conforms_not_rejected {F : Formats} {v : SpecVersion} {j : Json} (h : Conforms F v j) :
    ¬ Rejected F v j := h.not_invalid

/-! ## Failing cases -/

namespace Witness

/-- The smallest BOM. -/
def empty : Bom := { version := 1, specVersion := .v1_3 }

/-- A component. -/
def lib : Component := { componentType := .library, name := "a", version := some "1" }

/-- A BOM with some metadata. -/
def metadata (m : Metadata) : Bom := { empty with metadata := some m }

/-- A BOM with a license. -/
def license (l : LicenseChoice) : Bom := metadata { licenses := some [l] }

/-- A BOM with a component. -/
def component (c : Component) : Bom := { empty with components := some [c] }

/-- A BOM with a machine learning model. -/
def card (m : ModelCard) : Bom := component { lib with modelCard := some m }

/-- A BOM with a data set. -/
def dataset (d : Dataset) : Bom := card { modelParameters := some { datasets := some [d] } }

/-- A BOM with evidence. -/
def evidence (e : ComponentEvidence) : Bom := component { lib with evidence := some e }

/-- A BOM with a vulnerability. -/
def vulnerability (x : Vulnerability) : Bom := { empty with vulnerabilities := some [x] }

/-- A BOM with an external reference. -/
def reference (t : ExternalReferenceType) : Bom :=
  component { lib with externalReferences := some [{ externalReferenceType := t, url := .url "http://docs" }] }

/-- A BOM with a workflow. -/
def workflow (x : Workflow) : Bom := { empty with formulation := some [{ workflows := some [x] }] }

/-- A BOM with a volume. -/
def volume (x : Volume) : Bom :=
  workflow { bomRef := "w", uid := "w", taskTypes := [.build],
             workspaces := some [{ bomRef := "x", uid := "x", volume := some x }] }

/-- A BOM with a version affected by a vulnerability. -/
def target (s : String) : Bom :=
  let t : TargetVersion := { versionRange := .version s, status := .affected }
  vulnerability { vulnerabilityTargets := some [{ bomRef := "x", versions := some [t] }] }

/-- One entry of a list of signers. -/
def signer : Signer := { algorithm := .hs512, value := "x" }

/-- BOMs that pass validation in a version but are written as documents that its schema rejects,
each with a BOM that differs only in what is wrong with the first. -/
def rejected : List (SpecVersion × Bom × Bom) :=
  [-- the member `bom-ref` is written as `bomRef`
   (.v1_5, metadata { authors := some [{ bomRef := some "a", name := some "Jo" }] },
     metadata { authors := some [{ name := some "Jo" }] }),
   (.v1_5, metadata { supplier := some { bomRef := some "a" } }, metadata { supplier := some { } }),
   (.v1_5, license (.license { bomRef := some "l", licenseIdentifier := .name "x" }),
     license (.license { licenseIdentifier := .name "x" })),
   (.v1_5, license (.expression { bomRef := some "l", expression := "MIT" }),
     license (.expression { expression := "MIT" })),
   (.v1_5, { empty with compositions := some [{ bomRef := some "c", aggregate := .complete }] },
     { empty with compositions := some [{ aggregate := .complete }] }),
   (.v1_5, card { bomRef := some "m" }, card { }),
   (.v1_5, evidence { occurrences := some [{ bomRef := some "o", location := "x" }] },
     evidence { occurrences := some [{ location := "x" }] }),
   (.v1_5, dataset (.component { bomRef := some "d", dataType := .other }),
     dataset (.component { dataType := .other })),
   -- other members have wrong names
   (.v1_4, vulnerability { vulnerabilityAnalysis := some { responses := some [.update] } },
     vulnerability { vulnerabilityAnalysis := some { } }),
   (.v1_5, vulnerability { vulnerabilityAnalysis := some { responses := some [.update] } },
     vulnerability { vulnerabilityAnalysis := some { } }),
   (.v1_5, card { quantitativeAnalysis := some { performanceMetrics := some [{ confidenceInterval := some { } }] } },
     card { quantitativeAnalysis := some { performanceMetrics := some [{ }] } }),
   (.v1_5, volume { sizeAllocated := some "1" }, volume { }),
   (.v1_5, dataset (.component { dataType := .other, governance := some { owners := some [.contact { }] } }),
     dataset (.component { dataType := .other, governance := some { owners := some [] } })),
   (.v1_5, license (.license { licenseIdentifier := .name "x", licensing := some { } }),
     license (.license { licenseIdentifier := .name "x" })),
   -- values have the wrong shape
   (.v1_4, { empty with signature := some (.signers [signer]) },
     { empty with signature := some (.single signer) }),
   (.v1_5, { empty with signature := some (.chain [signer]) },
     { empty with signature := some (.single signer) }),
   (.v1_5, component { lib with data := some { dataType := .other } }, component lib),
   (.v1_5, dataset (.reference "x"), dataset (.component { dataType := .other })),
   (.v1_5, dataset (.component { dataType := .other, sensitiveData := some "x" }),
     dataset (.component { dataType := .other })),
   -- values that the version does not have
   (.v1_3, reference .attestation, reference .website),
   (.v1_4, reference .attestation, reference .releaseNotes),
   (.v1_5, reference .condifiedInfrastructure, reference .attestation),
   (.v1_4, { empty with compositions := some [{ aggregate := .incompleteFirstPartyProprietaryOnly }] },
     { empty with compositions := some [{ aggregate := .incompleteFirstPartyOnly }] }),
   -- values out of range
   (.v1_5, { empty with version := 0 }, empty),
   (.v1_5, component { lib with bomRef := some "" }, component { lib with bomRef := some "a" }),
   (.v1_4, vulnerability { cwes := some [0] }, vulnerability { cwes := some [1] }),
   (.v1_4, target "", target "1"),
   (.v1_5, evidence { identity := some { field := .group, confidence := some 0x40000000 } },
     evidence { identity := some { field := .group, confidence := some 0x3f800000 } }),
   (.v1_5, evidence { identity := some { field := .group, confidence := some 0x7fc00000 } },
     evidence { identity := some { field := .group, confidence := some 0 } }),
   -- the same twice
   (.v1_3, { empty with components := some [lib, lib] },
     { empty with components := some [lib, { lib with name := "b" }] })]

/-- The formats of the examples: every string has every format, except that nothing is a `uri`, which
the schema of signatures asks of the names of algorithms. -/
def formats (f _ : String) : Bool := f != "uri"

end Witness

/-- The answer of the evaluator for a whole document. -/
def documentEval (v : SpecVersion) (j : Json) : Option Bool :=
  (Schema.ref "root").eval (fun _ _ => none) (schemaContext (fun _ _ => True) v).defs 60 j

theorem rejected_of_eval {F : Formats} {v : SpecVersion} {j : Json} (h : documentEval v j = some false) :
    Rejected F v j := (Schema.eval_sound (schemaContext F v) (known := fun _ _ => none) (fun _ _ => ⟨nofun, nofun⟩) 60 _ j).2 h

/-- C66 refuted: each BOM of the list passes validation and is written, but the schema rejects what
is written, whatever the formats mean. The BOM beside it, which lacks only the flaw, also passes
validation and is written as a document that conforms to the schema. -/
theorem C66_rejected : ∀ w ∈ Witness.rejected,
    (Bom.validateVersion exampleEnv w.1 w.2.1 = .ok [] ∧
      ∃ j, w.2.1.outputJson w.1 = .ok j ∧ ∀ F, Rejected F w.1 j) ∧
    (Bom.validateVersion exampleEnv w.1 w.2.2 = .ok [] ∧
      ∃ j, w.2.2.outputJson w.1 = .ok j ∧ Conforms (fun f s => Witness.formats f s = true) w.1 j) := by
  have key : (Witness.rejected.all fun w =>
      noErrors (Bom.validateVersion exampleEnv w.1 w.2.1) && w.2.1.converts w.1 &&
      (documentEval w.1 (w.2.1.toJson w.1) == some false) &&
      noErrors (Bom.validateVersion exampleEnv w.1 w.2.2) && w.2.2.converts w.1 &&
      (Elem.bom (w.2.2.at w.1)).allInside (Elem.ruleEval Witness.formats w.1) 20) = true := by
    decide +kernel
  have valid : ∀ {r : Res VResult}, noErrors r = true → r = .ok [] := by
    intro r h
    unfold noErrors at h
    split at h
    · rfl
    · cases h
  intro w hw
  have h := List.all_eq_true.mp key w hw
  simp only [Bool.and_eq_true, beq_iff_eq] at h
  obtain ⟨⟨⟨⟨⟨h1, h2⟩, h3⟩, h4⟩, h5⟩, h6⟩ := h
  have e : ∀ {b : Bom}, b.converts w.1 = true → b.outputJson w.1 = .ok (b.toJson w.1) := by
    intro b hb
    unfold Bom.outputJson
    rw [if_pos hb]
  exact ⟨⟨valid h1, _, e h2, fun F => rejected_of_eval h3⟩,
    ⟨valid h4, _, e h5, C66_conforms_partial (sound_of_eval h6) (e h5)⟩⟩

/-! ## Examples -/

/-- The configuration of the example, for JSON. -/
def jsonConfig : SbomConfig := { Example.config with format := some .json }

/-- Non-vacuity: the example workspace meets the hypotheses of `C65_generated_conforms`. -/
example : FormatsAgree Example.env (fun f s => Witness.formats f s = true) ∧
    MetadataOk Example.md Example.nodes ∧ PlainIds Example.md Example.nodes ∧
    ∃ s w, createSboms Example.env Example.md jsonConfig = .ok [s] ∧
      writeToFiles false s = .ok [w] ∧ w.format = .json := by
  refine ⟨⟨fun _ _ => rfl, fun _ _ => rfl, fun _ _ => rfl, fun _ _ => rfl⟩, Example.md_ok, ⟨?_, ?_⟩,
    ⟨_, _, rfl, rfl, rfl⟩⟩
  · decide
  · decide

/-- The organization of the rich example without its identifier, which would be written wrongly. -/
def plainOrganization : OrganizationalEntity := { Example.organization with bomRef := none }

/-- The component of the rich example. -/
def plainComponent : Component :=
  { Example.component with
    supplier := some plainOrganization
    hashes := some [{ alg := .md5, content := "00112233445566778899aabbccddeeff" }] }

/-- The metadata of the rich example. -/
def plainMetadata : Metadata where
  timestamp := some "2024-01-01T00:00:00Z"
  tools := some (.list [{ vendor := some "ACME", name := some "gen", version := some "1" }])
  authors := some [{ name := some "Jo", phone := some "1" }]
  component := some plainComponent
  manufacture := some plainOrganization
  licenses := some Example.licenses
  lifecycles := some [.phase .build]

/-- The rich example without what is written wrongly. -/
def plainBom : Bom :=
  { Example.bom with
    metadata := some plainMetadata
    components := some [plainComponent, Witness.lib]
    services := some [{ Example.service with provider := some plainOrganization }]
    vulnerabilities := some [{ Example.vulnerability with
      vulnerabilityCredits := some { organizations := some [plainOrganization] }
      vulnerabilityAnalysis := some { state := some .exploitable, detail := some "see" } }]
    externalReferences := some [{ externalReferenceType := .website, url := .url "https://acme.example" }]
    signature := some Example.signature
    formulation := some
      [{ bomRef := some "f1", components := some [plainComponent], workflows := some [Example.workflow] }] }

/-- Non-vacuity: a document with something of nearly everything meets the hypotheses of
`C66_conforms_partial` in every version. -/
example (v : SpecVersion) :
    (Elem.bom (plainBom.at v)).Sound (fun f s => Witness.formats f s = true) v ∧
    plainBom.outputJson v = .ok (plainBom.toJson v) := by
  have h1 : (Elem.bom (plainBom.at v)).allInside (Elem.ruleEval Witness.formats v) 20 = true := by
    cases v <;> decide +kernel
  have h2 : plainBom.converts v = true := by
    cases v <;> decide +kernel
  refine ⟨sound_of_eval h1, ?_⟩
  unfold Bom.outputJson
  rw [if_pos h2]

/-- A workspace whose package has the same dependency twice. -/
def twiceMd : CargoMetadata :=
  { Example.md with
    packages := [Example.rootPkg, Example.pkg "a"]
    resolve := some [{ id := "root", deps := [Example.dep "a" [.normal], Example.dep "a" [.build]],
                       dependencies := ["a"] },
                     { id := "a", deps := [], dependencies := [] }] }

/-- The answer of the evaluator about the one file that is written. -/
def writtenEval (env : Env) (md : CargoMetadata) (config : SbomConfig) : Option Bool :=
  match createSboms env md config with
  | .ok [s] => match writeToFiles false s with
    | .ok [w] => documentEval w.specVersion (w.bom.toJson w.specVersion)
    | _ => none
  | _ => none

/-- `PlainIds` is needed for C65: if `cargo metadata` could list a dependency of a package twice, the
SBOM would list it twice, which the schema rejects. -/
theorem C65_once_needed : writtenEval Example.env twiceMd jsonConfig = some false := by
  decide +kernel

end Cdx.Props
