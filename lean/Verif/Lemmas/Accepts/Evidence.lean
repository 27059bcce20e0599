import Verif.Lemmas.Accepts.Special

set_option linter.unusedSectionVars false
set_option linter.unusedVariables false

/-!
# Reading elements that conform to the format: licenses and evidence

Generated by a script from the arms of the readers and the table of the format.
-/

namespace Cdx

open Spec

variable {v : SpecVersion} {d : Nat} [F32Format] [ReadLimit]

theorem Licenses.takes (H : DecimalsParse) : Takes v d (Licenses.readXml v) .licenses := 
  takes_struct ["license", "expression"] rfl (fun _ _ => True) (fun _ _ _ => ⟨_, rfl⟩)
    (armsTake_cons .license (by cases v <;> decide +kernel) (armTakes (License.takes H) (fun _ _ => trivial) fun _ _ _ _ => trivial) <|
      armsTake_cons .expression (by cases v <;> decide +kernel) (armTakes (SpdxExpression.takes H) (fun _ _ => trivial) fun _ _ _ _ => trivial) <|
      armsTake_nil)
    rfl (by cases v <;> decide +kernel)
    (fun _ _ _ _ => ⟨_, rfl⟩)

theorem Identity.takes (H : DecimalsParse) : Takes v d Identity.readXml .identity := 
  takes_struct ["field", "confidence", "methods", "tools"] rfl (fun m (s : Identity.Vars) => (m = "field" → s.field.isSome = true)) (fun _ _ _ => ⟨_, rfl⟩)
    (armsTake_cons .string (by cases v <;> decide +kernel) (armTakes (takes_map (takes_simple rfl) _) (by has_set) (by has_keep)) <|
      armsTake_cons .decimal (by cases v <;> decide +kernel) (armTakes (takes_f32 H rfl) (by has_set) (by has_keep)) <|
      armsTake_cons .methods (by cases v <;> decide +kernel) (armTakes (takes_list (t' := .method) rfl (by cases v <;> rfl) (Method.takes H)) (by has_set) (by has_keep)) <|
      armsTake_cons .toolRefs (by cases v <;> decide +kernel) (armTakesAs (takes_toolRefs) (by has_set) (by has_keep)) <|
      armsTake_nil)
    rfl (by cases v <;> decide +kernel)
    (fun el p st h => by
      have g0 := seen_one (v := v) (t := .identity) (st := st) (Has := fun m (s : Identity.Vars) => (m = "field" → s.field.isSome = true)) "field" (by cases v <;> decide +kernel) h
      obtain ⟨x0, e0⟩ := Option.isSome_iff_exists.mp (g0 rfl)
      simp [Cdx.required, e0, bind, Except.bind])

theorem ComponentEvidence.takes (H : DecimalsParse) : Takes v d (ComponentEvidence.readXml v) .evidence := 
  takes_struct (["licenses", "copyright"] ++ since15 v ["occurrences", "callstack", "identity"] []) rfl (fun _ _ => True) (fun _ _ _ => ⟨_, rfl⟩)
    (armsTake_append (armsTake_cons .licenses (by cases v <;> decide +kernel) (armTakes (Licenses.takes H) (fun _ _ => trivial) fun _ _ _ _ => trivial) <|
      armsTake_cons .copyrights (by cases v <;> decide +kernel) (armTakes (takes_list (t' := .string) rfl (by cases v <;> rfl) (takes_simple rfl)) (fun _ _ => trivial) fun _ _ _ _ => trivial) <|
      armsTake_nil) <|
      armsTake_since15 <|
      armsTake_cons .occurrences (by cases v <;> decide +kernel) (armTakes (takes_list (t' := .occurrence) rfl (by cases v <;> rfl) (Occurrence.takes H)) (fun _ _ => trivial) fun _ _ _ _ => trivial) <|
      armsTake_cons .callstack (by cases v <;> decide +kernel) (armTakesAs (Callstack.takes H) (fun _ _ => trivial) fun _ _ _ _ => trivial) <|
      armsTake_cons .identity (by cases v <;> decide +kernel) (armTakes (Identity.takes H) (fun _ _ => trivial) fun _ _ _ _ => trivial) <|
      armsTake_nil)
    (by cases v <;> rfl) (by cases v <;> decide +kernel)
    (fun _ _ _ _ => ⟨_, rfl⟩)

end Cdx
