import Verif.Lemmas.Accepts.Service

set_option linter.unusedSectionVars false
set_option linter.unusedVariables false

/-!
# Reading elements that conform to the format: components

Generated by a script from the arms of the readers and the table of the format.
-/

namespace Cdx

open Spec

variable {v : SpecVersion} {d : Nat} [F32Format] [ReadLimit]

theorem Pedigree.takesWith (H : DecimalsParse) {sub : XElem Component} (hsub : Takes v d sub .component) : Takes v d (Pedigree.readXmlWith sub v) .pedigree := 
  takes_struct ["ancestors", "descendants", "variants", "commits", "patches", "notes"] rfl (fun _ _ => True) (fun _ _ _ => ⟨_, rfl⟩)
    (armsTake_cons .components (by cases v <;> decide +kernel) (armTakes (takes_list (t' := .component) rfl (by cases v <;> rfl) (hsub)) (fun _ _ => trivial) fun _ _ _ _ => trivial) <|
      armsTake_cons .components (by cases v <;> decide +kernel) (armTakes (takes_list (t' := .component) rfl (by cases v <;> rfl) (hsub)) (fun _ _ => trivial) fun _ _ _ _ => trivial) <|
      armsTake_cons .components (by cases v <;> decide +kernel) (armTakes (takes_list (t' := .component) rfl (by cases v <;> rfl) (hsub)) (fun _ _ => trivial) fun _ _ _ _ => trivial) <|
      armsTake_cons .commits (by cases v <;> decide +kernel) (armTakes (takes_list (t' := .commit) rfl (by cases v <;> rfl) (Commit.takes H)) (fun _ _ => trivial) fun _ _ _ _ => trivial) <|
      armsTake_cons .patches (by cases v <;> decide +kernel) (armTakes (takes_list (t' := .patch) rfl (by cases v <;> rfl) (Patch.takes H)) (fun _ _ => trivial) fun _ _ _ _ => trivial) <|
      armsTake_cons .string (by cases v <;> decide +kernel) (armTakes (takes_simple rfl) (fun _ _ => trivial) fun _ _ _ _ => trivial) <|
      armsTake_nil)
    rfl (by cases v <;> decide +kernel)
    (fun _ _ _ _ => ⟨_, rfl⟩)

theorem Component.takesWith (H : DecimalsParse) {sub : XElem Component} (hsub : Takes v d sub .component) : Takes v (d + 1) (Component.readXmlWith sub v) .component := 
  (takes_struct_has rfl (fun m (s : Component.Vars) => (m = "name" → s.name.isSome = true) ∧ (m = "version" → s.version.isSome = true)) (fun el attrs h => by
      obtain ⟨s0, h0⟩ := h.req el "type" (by cases v <;> decide +kernel)
      simp [h0, bind, Except.bind])
    (armsTake_append (armsTake_append (armsTake_cons .organizationalEntity (by cases v <;> decide +kernel) (armTakes (OrganizationalEntity.takes H) (by has_set) (by has_keep)) <|
      armsTake_cons .string (by cases v <;> decide +kernel) (armTakes (takes_simple rfl) (by has_set) (by has_keep)) <|
      armsTake_cons .string (by cases v <;> decide +kernel) (armTakes (takes_simple rfl) (by has_set) (by has_keep)) <|
      armsTake_cons .string (by cases v <;> decide +kernel) (armTakes (takes_simple rfl) (by has_set) (by has_keep)) <|
      armsTake_cons .string (by cases v <;> decide +kernel) (armTakes (takes_simple rfl) (by has_set) (by has_keep)) <|
      armsTake_cons .string (by cases v <;> decide +kernel) (armTakes (takes_simple rfl) (by has_set) (by has_keep)) <|
      armsTake_cons .string (by cases v <;> decide +kernel) (armTakes (takes_simple rfl) (by has_set) (by has_keep)) <|
      armsTake_cons .string (by cases v <;> decide +kernel) (armTakes (takes_map (takes_simple rfl) _) (by has_set) (by has_keep)) <|
      armsTake_cons .hashes (by cases v <;> decide +kernel) (armTakes (takes_list (t' := .hash) rfl (by cases v <;> rfl) (Hash.takes H)) (by has_set) (by has_keep)) <|
      armsTake_cons .licenses (by cases v <;> decide +kernel) (armTakes (Licenses.takes H) (by has_set) (by has_keep)) <|
      armsTake_cons .string (by cases v <;> decide +kernel) (armTakes (takes_simple rfl) (by has_set) (by has_keep)) <|
      armsTake_cons .string (by cases v <;> decide +kernel) (armTakes (takes_simple rfl) (by has_set) (by has_keep)) <|
      armsTake_cons .string (by cases v <;> decide +kernel) (armTakes (takes_simple rfl) (by has_set) (by has_keep)) <|
      armsTake_cons .swid (by cases v <;> decide +kernel) (armTakes (Swid.takes) (by has_set) (by has_keep)) <|
      armsTake_cons .boolean (by cases v <;> decide +kernel) (armTakes (takes_bool rfl) (by has_set) (by has_keep)) <|
      armsTake_cons .pedigree (by cases v <;> decide +kernel) (armTakes (Pedigree.takesWith H hsub) (by has_set) (by has_keep)) <|
      armsTake_cons .externalReferences (by cases v <;> decide +kernel) (armTakes (takes_list (t' := .externalReference) rfl (by cases v <;> rfl) (ExternalReference.takes H)) (by has_set) (by has_keep)) <|
      armsTake_cons .properties (by cases v <;> decide +kernel) (armTakes (takes_list (t' := .property) rfl (by cases v <;> rfl) (Property.takes H)) (by has_set) (by has_keep)) <|
      armsTake_cons .components (by cases v <;> decide +kernel) (armTakes (takes_list (t' := .component) rfl (by cases v <;> rfl) (hsub)) (by has_set) (by has_keep)) <|
      armsTake_cons .evidence (by cases v <;> decide +kernel) (armTakes (ComponentEvidence.takes H) (by has_set) (by has_keep)) <|
      armsTake_nil) <|
      armsTake_since14 <|
      armsTake_other (by cases v <;> decide +kernel) <|
      armsTake_nil) <|
      armsTake_since15 <|
      armsTake_cons .modelCard (by cases v <;> decide +kernel) (armTakesAs (ModelCard.takes H) (by has_set) (by has_keep)) <|
      armsTake_cons .componentData (by cases v <;> decide +kernel) (armTakes (ComponentData.takes H) (by has_set) (by has_keep)) <|
      armsTake_nil)
    (skip_missing (["supplier", "author", "publisher", "group", "name", "version", "description", "scope", "hashes", "licenses", "copyright", "cpe", "purl", "swid", "modified", "pedigree", "externalReferences", "properties", "components", "evidence"] ++ since14 v ["signature"] [] ++ since15 v ["modelCard", "data"] []) rfl (by cases v <;> rfl) (by intro n hn st; simp at hn; simp [hn]))
    (fun el p st h => by
      have g0 := seen_one (v := v) (t := .component) (st := st) (Has := fun m (s : Component.Vars) => (m = "name" → s.name.isSome = true) ∧ (m = "version" → s.version.isSome = true)) "name" (by cases v <;> decide +kernel) h
      obtain ⟨x0, e0⟩ := Option.isSome_iff_exists.mp (g0.1 rfl)
      cases v with
      | v1_3 =>
        have g1 := seen_one (v := .v1_3) (t := .component) (st := st) (Has := fun m (s : Component.Vars) => (m = "name" → s.name.isSome = true) ∧ (m = "version" → s.version.isSome = true)) "version" (by decide +kernel) h
        obtain ⟨x1, e1⟩ := Option.isSome_iff_exists.mp (g1.2 rfl)
        simp [Cdx.required, since14, e0, e1, Except.map, bind, Except.bind]
      | v1_4 => simp [Cdx.required, since14, e0, bind, Except.bind]
      | v1_5 => simp [Cdx.required, since14, e0, bind, Except.bind]))

theorem Component.takesN (H : DecimalsParse) : ∀ n, Takes v n (Component.readXmlN v n) .component
  | 0 => fun _ _ _ _ _ h => absurd h (Nat.not_lt_zero _)
  | n + 1 => Component.takesWith H (Component.takesN H n)

theorem Component.takes (H : DecimalsParse) (hd : d ≤ ReadLimit.limit) : Takes v d (Component.readXml v) .component :=
  (Component.takesN H ReadLimit.limit).mono hd

end Cdx
