import Verif.Lemmas.Gets.Component

set_option linter.unusedSectionVars false
set_option linter.unusedSimpArgs false
set_option linter.unusedVariables false

/-!
# What the reader of documents returns
-/

namespace Cdx

variable [F32Format] [ReadLimit] {v w : SpecVersion}


/-- What is known of the local variables of the reader of `Bom`. -/
structure Bom.Vars.Got (v : SpecVersion) (s : Bom.Vars) : Prop where
  metadata : ∀ y, s.metadata = some y → (Metadata.XmlKept v y → Metadata.XmlOk v y) ∧ Metadata.at v y = y
  components : ∀ y, s.components = some y →
    ∀ z ∈ y, (Component.XmlKept v z → Component.XmlOk v z) ∧ Component.at v z = z
  services : ∀ y, s.services = some y →
    ∀ z ∈ y, (Service.XmlKept v z → Service.XmlOk v z) ∧ Service.at v z = z
  externalReferences : ∀ y, s.externalReferences = some y →
    ∀ z ∈ y, ExternalReference.XmlKept z → ExternalReference.XmlOk z
  compositions : ∀ y, s.compositions = some y →
    ∀ z ∈ y, (Composition.XmlKept v z → Composition.XmlOk v z) ∧ Composition.at v z = z
  properties : ∀ y, s.properties = some y → ∀ z ∈ y, Property.XmlOk z
  properties_none : v ≠ .v1_5 → s.properties = none
  vulnerabilities : ∀ y, s.vulnerabilities = some y →
    ∀ z ∈ y, (Vulnerability.XmlKept v z → Vulnerability.XmlOk v z) ∧ Vulnerability.at v z = z
  vulnerabilities_none : v = .v1_3 → s.vulnerabilities = none
  signature_none : v = .v1_3 → s.signature = none
  annotations_none : v ≠ .v1_5 → s.annotations = none
  formulation : ∀ y, s.formulation = some y →
    ∀ z ∈ y, (Formula.XmlKept v z → Formula.XmlOk v z) ∧ Formula.at v z = z
  formulation_none : v ≠ .v1_5 → s.formulation = none

theorem Bom.gets_arms (hu : v.ord ≤ w.ord) : ArmsGet (Bom.Vars.Got w) (Bom.arms v) := by
  unfold Bom.arms
  exact (armsGetAppend (armsGetAppend
    (armsGetCons (arm_gets (Metadata.gets hu) fun y s h hy => { h with metadata := fun z e => by cases e; exact hy }) <|
     armsGetCons (arm_gets (list_gets (Component.gets hu)) fun y s h hy => { h with components := fun z e => by cases e; exact hy }) <|
     armsGetCons (arm_gets (list_gets (Service.gets hu)) fun y s h hy => { h with services := fun z e => by cases e; exact hy }) <|
     armsGetCons (arm_gets (list_gets ExternalReference.gets) fun y s h hy => { h with externalReferences := fun z e => by cases e; exact hy }) <|
     armsGetCons (arm_gets (list_gets Dependency.gets) fun y s h _ => { h with }) <|
     armsGetCons (arm_gets (list_gets (Composition.gets hu)) fun y s h hy => { h with compositions := fun z e => by cases e; exact hy }) <|
     armsGetNil)
    (armsGet14 hu fun hv =>
     armsGetCons (arm_gets (list_gets (Vulnerability.gets hu)) fun y s h hy => { h with vulnerabilities := fun z e => by cases e; exact hy, vulnerabilities_none := fun e => absurd e hv }) <|
     armsGetCons (arm_gets Signature.gets fun y s h _ => { h with signature_none := fun e => absurd e hv }) <|
     armsGetNil))
    (armsGet15 hu fun hv =>
     armsGetCons (arm_gets (list_gets Property.gets) fun y s h hy => { h with properties := fun z e => by cases e; exact hy, properties_none := fun e => absurd hv e }) <|
     armsGetCons (arm_gets (list_gets (Annotation.gets hu)) fun y s h _ => { h with annotations_none := fun e => absurd hv e }) <|
     armsGetCons (arm_gets (list_gets (Formula.gets hu)) fun y s h hy => { h with formulation := fun z e => by cases e; exact hy, formulation_none := fun e => absurd hv e }) <|
     armsGetNil))

theorem Bom.version_gets {attrs : List (String × String)} {n : Nat}
    (h : Bom.versionOfAttrs attrs = .ok n) : n < 2 ^ 32 := by
  unfold Bom.versionOfAttrs at h
  split at h
  · unfold parseU32Attr at h
    split at h
    · rename_i h'
      cases h
      exact parseU32_lt h'
    · cases h
  · cases h
    decide

theorem Bom.gets_document (hu : v.ord ≤ w.ord) {evs : List XEvent} {b : Bom} (hc : CleanTexts evs)
    (h : Bom.readDocument v evs = .ok b) (hk : Bom.XmlKept w b) : Bom.XmlOk w b ∧ Bom.at w b = { b with specVersion := w } := by
  unfold Bom.readDocument at h
  split at h
  · rename_i n attrs ns l
    split at h
    · split at h
      · obtain ⟨version, hn, h⟩ := xbind h
        obtain ⟨⟨s, l'⟩, hl, h⟩ := xbind h
        have hs := (readLoop_gets (Bom.gets_arms hu) (st := {}) { metadata := noneAll, components := noneAll, services := noneAll, externalReferences := noneAll, compositions := noneAll, properties := noneAll, properties_none := fun _ => rfl, vulnerabilities := noneAll, vulnerabilities_none := fun _ => rfl, signature_none := fun _ => rfl, annotations_none := fun _ => rfl, formulation := noneAll, formulation_none := fun _ => rfl }
          (fun e he => hc e (List.mem_cons_of_mem _ (List.mem_cons_of_mem _ he))) hl).1
        dsimp only at h
        split at h
        · cases h
          have a_metadata : s.metadata.map (Metadata.at w) = s.metadata := optMap_id fun y hy => (hs.metadata y hy).2
          have a_components : s.components.map (List.map (Component.at w)) = s.components := optMap_id fun y hy => listMap_id fun z hz => (hs.components y hy z hz).2
          have a_services : s.services.map (List.map (Service.at w)) = s.services := optMap_id fun y hy => listMap_id fun z hz => (hs.services y hy z hz).2
          have a_compositions : s.compositions.map (List.map (Composition.at w)) = s.compositions := optMap_id fun y hy => listMap_id fun z hz => (hs.compositions y hy z hz).2
          have n_properties : since15 w s.properties none = s.properties := since15_none hs.properties_none
          have a_vulnerabilities : s.vulnerabilities.map (List.map (Vulnerability.at w)) = s.vulnerabilities := optMap_id fun y hy => listMap_id fun z hz => (hs.vulnerabilities y hy z hz).2
          have n_vulnerabilities : since14 w s.vulnerabilities none = s.vulnerabilities := since14_none hs.vulnerabilities_none
          have n_signature : since14 w s.signature none = s.signature := since14_none hs.signature_none
          have n_formulation : since15 w s.formulation none = s.formulation := since15_none hs.formulation_none
          have a_formulation : s.formulation.map (List.map (Formula.at w)) = s.formulation := optMap_id fun y hy => listMap_id fun z hz => (hs.formulation y hy z hz).2
          have e_annotations : s.annotations = none := by
            by_cases hv : w = .v1_5
            · exact hk.annotations hv
            · exact hs.annotations_none hv
          have n_annotations : since15 w (s.annotations.map (List.map (Annotation.at w))) none = s.annotations := by
            rw [e_annotations]
            exact since15_none fun _ => rfl
          exact ⟨{ version := Bom.version_gets hn,
                   signature := hk.signature,
                   annotations := hk.annotations,
                   metadata := fun y hy => (hs.metadata y hy).1 (hk.metadata y hy),
                   components := fun y hy z hz => (hs.components y hy z hz).1 (hk.components y hy z hz),
                   services := fun y hy z hz => (hs.services y hy z hz).1 (hk.services y hy z hz),
                   externalReferences := fun y hy z hz => hs.externalReferences y hy z hz (hk.externalReferences y hy z hz),
                   compositions := fun y hy z hz => (hs.compositions y hy z hz).1 (hk.compositions y hy z hz),
                   properties := fun _ y hy z hz => hs.properties y hy z hz,
                   vulnerabilities := fun hv y hy z hz => (hs.vulnerabilities y hy z hz).1 (hk.vulnerabilities hv y hy z hz),
                   formulation := fun hv y hy z hz => (hs.formulation y hy z hz).1 (hk.formulation hv y hy z hz) },
            by simp only [Bom.at, a_metadata, a_components, a_services, a_compositions, n_properties, a_vulnerabilities, n_vulnerabilities, n_signature, n_annotations, a_formulation, n_formulation]⟩
        · cases h
        · cases h
      · cases h
    · cases h
  all_goals cases h

end Cdx
