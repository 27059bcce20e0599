import Verif.Props.ExampleBom
import Verif.Lemmas.File.Converts
import Verif.Lemmas.File.Json
import Verif.Lemmas.File.Read
import Verif.Model.DecEq

/-!
# Properties C39 and C75: from the program's structures to those of the files and back
-/

set_option linter.unusedSectionVars false

namespace Cdx.Props
open Cdx

variable {v : SpecVersion} {b : Bom}

/-! ## C39: model to specification and back

`Bom.toFile v` is the conversion to the structures of version `v`, `File.Bom.toModel` the conversion
back. `b.at v` is `b` without the fields that version `v` does not have. -/

/-- C39: a document whose enumeration values are read back from their names comes back from the
structures of a version, but for what the version does not have. -/
theorem C39_convert_partial {f : File.Bom v} (h : Bom.toFile v b = .ok f) (hn : Bom.Named v b) :
    f.toModel = b.at v :=
  (Bom.file_rt v b f h).2 hn

/-- C39: version 1.5 has everything: the document comes back, labelled as of version 1.5. -/
theorem C39_convert15_partial {f : File.Bom .v1_5} (h : Bom.toFile .v1_5 b = .ok f) (hn : Bom.Named .v1_5 b) :
    f.toModel = { b with specVersion := .v1_5 } := by
  rw [C39_convert_partial h hn]
  exact @Bom.at_v1_5 Example.f32 Example.limit b

/-- A document that signs with an algorithm the program does not know. -/
def signedUnknown : Bom :=
  { version := 1, specVersion := .v1_5, signature := some (.single { algorithm := .unknown "XYZ", value := "abc=" }) }

/-- A document with a component whose unknown type is called like a known one. -/
def typedUnknown : Bom :=
  { version := 1, specVersion := .v1_5,
    components := some [{ componentType := .unknownClassification "library", name := "widget", version := some "1" }] }

/-- What comes back from the structures of a version. -/
def thereAndBack (v : SpecVersion) (b : Bom) : Option Bom := (Bom.toFile v b).toOption.map File.Bom.toModel

/-- C39 fails for other documents: the name of an unknown signature algorithm is replaced by the name of
the variant (`Display` of `Algorithm`), in both versions that have signatures. -/
theorem C39_fails_algorithm :
    thereAndBack .v1_5 signedUnknown =
      some { signature := some (.single { algorithm := .unknown "Unknown", value := "abc=" }), specVersion := .v1_5, version := 1 } ∧
    thereAndBack .v1_4 signedUnknown =
      some { signature := some (.single { algorithm := .unknown "Unknown", value := "abc=" }), specVersion := .v1_4, version := 1 } := by
  decide +kernel

/-- C39 fails for other documents: an unknown name that is in fact known comes back as the known
value. -/
theorem C39_fails_name :
    thereAndBack .v1_5 typedUnknown =
      some { components := some [{ componentType := .library, name := "widget", version := some "1" }],
             specVersion := .v1_5, version := 1 } := by
  decide +kernel

/-! ## C75: which documents survive the conversion, and what is written is what was converted -/

/-- C75: the conversion to the structures of a version and back gives the document without what the
version does not have, if and only if every enumeration value and every address of an external
reference in the parts that the version has is read back from its name. -/
theorem C75_survives_iff {f : File.Bom v} (h : Bom.toFile v b = .ok f) : f.toModel = b.at v ↔ Bom.Named v b :=
  Bom.file_rt v b f h

/-- C75: the conversion to versions 1.4 and 1.5 never fails. -/
theorem C75_converts (hv : v ≠ .v1_3) : ∃ f, Bom.toFile v b = .ok f := by
  have h := Bom.gives v b
  have hb : b.converts v = true := by cases v <;> first | exact absurd rfl hv | rfl
  rw [hb] at h
  rcases h with ⟨-, h⟩ | ⟨h, -⟩
  · exact h
  · exact nomatch h

/-- C75: the conversion to version 1.3 fails exactly if `output_as_json_v1_3` fails. -/
theorem C75_converts13 [F32Format] : (∃ f, Bom.toFile .v1_3 b = .ok f) ↔ ∃ j, b.outputJson .v1_3 = .ok j := by
  have h := Bom.gives .v1_3 b
  unfold Bom.outputJson
  rcases h with ⟨e, f, h⟩ | ⟨e, h⟩
  · exact ⟨fun _ => ⟨_, if_pos e⟩, fun _ => ⟨f, h⟩⟩
  · refine ⟨fun ⟨f, h'⟩ => ?_, fun ⟨j, h'⟩ => ?_⟩
    · rw [h] at h'; exact nomatch h'
    · rw [if_neg (by simp [e])] at h'; exact nomatch h'

/-- C75: `output_as_json` writes the structures that the document is converted to, and fails exactly if
the conversion does. -/
theorem C75_written [F32Format] [ReadLimit] : b.outputJson v = (Bom.toFile v b).map File.Bom.toJson := by
  unfold Bom.outputJson
  rcases Bom.gives v b with ⟨e, f, h⟩ | ⟨e, h⟩
  · rw [if_pos e, h, ← Bom.json_file_apply v b f h]; rfl
  · rw [if_neg (by simp [e]), h]; rfl

/-- C75: `parse_from_json` reads the structures of the version and converts them. -/
theorem C75_read [F32Format] [ReadLimit] (j : Json) :
    Bom.parseJsonWith v j = (File.Bom.ofJson v j).map File.Bom.toModel :=
  Bom.ofJson_apply v j

/-- The example is converted to every version. -/
example : (Bom.toFile .v1_3 Example.bom).isOk ∧ (Bom.toFile .v1_4 Example.bom).isOk ∧
    (Bom.toFile .v1_5 Example.bom).isOk := by
  decide +kernel

/-- What comes back of the example is what the version has, so that by `C75_survives_iff` its
enumeration values are read back from their names. -/
example : thereAndBack .v1_3 Example.bom = some (Example.bom.at .v1_3) ∧
    thereAndBack .v1_4 Example.bom = some (Example.bom.at .v1_4) ∧
    thereAndBack .v1_5 Example.bom = some (Example.bom.at .v1_5) := by
  decide +kernel

end Cdx.Props
