import Verif.Lemmas.Format.At
import Verif.Lemmas.Format.Converts

set_option linter.unusedSectionVars false
set_option linter.unusedSimpArgs false

/-!
# Lemmas on what two versions of the format have

What a version has of what another version has is what the earlier one of the two has.
-/

namespace Cdx

variable [F32Format]

/-- The earlier one of two versions. -/
def SpecVersion.earlier (v w : SpecVersion) : SpecVersion := if v.ord ≤ w.ord then v else w

theorem optMap_both {α : Type} {f g h : α → α} {x : Option α}
    (e : ∀ y, x = some y → f (g y) = h y) : (x.map g).map f = x.map h := by
  cases x with
  | none => rfl
  | some y => rw [Option.map_some, Option.map_some, Option.map_some, e y rfl]

theorem listMap_both {α : Type} {f g h : α → α} : ∀ {l : List α},
    (∀ y ∈ l, f (g y) = h y) → (l.map g).map f = l.map h
  | [], _ => rfl
  | x :: l, e => by
    simp only [List.map_cons]
    rw [e x (.head _), listMap_both fun y hy => e y (.tail _ hy)]

theorem optList_both {α : Type} {f g h : α → α} {x : Option (List α)}
    (e : ∀ l, x = some l → ∀ y ∈ l, f (g y) = h y) :
    (x.map (List.map g)).map (List.map f) = x.map (List.map h) :=
  optMap_both fun l hl => listMap_both (e l hl)

variable (v w : SpecVersion)

theorem License.at_both (x : License) : License.at v (License.at w x) = License.at (v.earlier w) x := by
  cases v <;> cases w <;> rfl

theorem LicenseChoice.at_both (x : LicenseChoice) :
    LicenseChoice.at v (LicenseChoice.at w x) = LicenseChoice.at (v.earlier w) x := by
  cases x with
  | license l => exact congrArg LicenseChoice.license (License.at_both v w l)
  | expression e => rfl

theorem Licenses.at_both (x : Licenses) : Licenses.at v (Licenses.at w x) = Licenses.at (v.earlier w) x :=
  listMap_both fun y _ => LicenseChoice.at_both v w y

theorem Composition.at_both (x : Composition) :
    Composition.at v (Composition.at w x) = Composition.at (v.earlier w) x := by cases v <;> cases w <;> rfl

theorem VulnerabilityAnalysis.at_both (x : VulnerabilityAnalysis) :
    VulnerabilityAnalysis.at v (VulnerabilityAnalysis.at w x) = VulnerabilityAnalysis.at (v.earlier w) x := by
  cases v <;> cases w <;> rfl

theorem ServiceDataChoice.at_both (x : ServiceDataChoice) :
    ServiceDataChoice.at v (ServiceDataChoice.at w x) = ServiceDataChoice.at (v.earlier w) x := by
  cases x <;> cases v <;> cases w <;> rfl

theorem ComponentEvidence.at_both (x : ComponentEvidence) :
    ComponentEvidence.at v (ComponentEvidence.at w x) = ComponentEvidence.at (v.earlier w) x := by
  simp only [ComponentEvidence.at, optMap_both fun y _ => Licenses.at_both v w y]
  cases v <;> cases w <;> rfl

theorem Service.at_both (x : Service) : Service.at v (Service.at w x) = Service.at (v.earlier w) x := by
  induction x using Service.ind with
  | h x ih =>
    rw [Service.at_eq v (Service.at w x), Service.at_eq w x, Service.at_eq (v.earlier w) x]
    simp only [optMap_both fun y _ => ServiceDataChoice.at_both v w y, optMap_both fun y _ => Licenses.at_both v w y]
    rw [optList_both fun l hl y hy => ih y (Service.mem_services hl hy)]
    cases v <;> cases w <;> rfl

theorem Pedigree.at_both {x : Pedigree}
    (h : ∀ y ∈ x.children, Component.at v (Component.at w y) = Component.at (v.earlier w) y) :
    Pedigree.at v (Pedigree.at w x) = Pedigree.at (v.earlier w) x := by
  rw [Pedigree.at_eq v (Pedigree.at w x), Pedigree.at_eq w x, Pedigree.at_eq (v.earlier w) x,
    optList_both fun l hl y hy => h y (Pedigree.mem_ancestors hl hy),
    optList_both fun l hl y hy => h y (Pedigree.mem_descendants hl hy),
    optList_both fun l hl y hy => h y (Pedigree.mem_variants hl hy)]

theorem Component.at_both (x : Component) :
    Component.at v (Component.at w x) = Component.at (v.earlier w) x := by
  induction x using Component.ind with
  | h x ih =>
    rw [Component.at_eq v (Component.at w x), Component.at_eq w x, Component.at_eq (v.earlier w) x]
    simp only [optMap_both fun y _ => Licenses.at_both v w y, optMap_both fun y _ => ComponentEvidence.at_both v w y]
    rw [optList_both fun l hl y hy => ih y (Component.mem_components hl hy),
      optMap_both fun p hp => Pedigree.at_both v w fun y hy => ih y (Component.mem_pedigree hp hy)]
    cases v <;> cases w <;> rfl

theorem Tool.at_both (x : Tool) : Tool.at v (Tool.at w x) = Tool.at (v.earlier w) x := by
  cases v <;> cases w <;> rfl

theorem Tools.at_both (x : Tools) : Tools.at v (Tools.at w x) = Tools.at (v.earlier w) x := by
  cases x with
  | list l => simp only [Tools.at, listMap_both fun y _ => Tool.at_both v w y]
  | object s c =>
    cases w with
    | v1_5 => rw [Tools.at_v1_5]; cases v <;> rfl
    | v1_3 => cases v <;> rfl
    | v1_4 => cases v <;> rfl

theorem Metadata.at_both (x : Metadata) : Metadata.at v (Metadata.at w x) = Metadata.at (v.earlier w) x := by
  simp only [Metadata.at, optMap_both fun y _ => Tools.at_both v w y, optMap_both fun y _ => Component.at_both v w y,
    optMap_both fun y _ => Licenses.at_both v w y]
  cases v <;> cases w <;> rfl

theorem Vulnerability.at_both (x : Vulnerability) :
    Vulnerability.at v (Vulnerability.at w x) = Vulnerability.at (v.earlier w) x := by
  simp only [Vulnerability.at, optMap_both fun y _ => Tools.at_both v w y,
    optMap_both fun y _ => VulnerabilityAnalysis.at_both v w y]
  cases v <;> cases w <;> rfl

theorem Annotator.at_both (x : Annotator) : Annotator.at v (Annotator.at w x) = Annotator.at (v.earlier w) x := by
  cases x <;> simp only [Annotator.at, Component.at_both, Service.at_both]

theorem Annotation.at_both (x : Annotation) : Annotation.at v (Annotation.at w x) = Annotation.at (v.earlier w) x := by
  simp only [Annotation.at, Annotator.at_both]

theorem Formula.at_both (x : Formula) : Formula.at v (Formula.at w x) = Formula.at (v.earlier w) x := by
  simp only [Formula.at, optList_both fun _ _ y _ => Component.at_both v w y,
    optList_both fun _ _ y _ => Service.at_both v w y]

variable [ReadLimit]

theorem since14_both {α : Type} {f g h : α → α} {x : Option (List α)} (e : ∀ y, f (g y) = h y) :
    since14 v ((since14 w (x.map (List.map g)) none).map (List.map f)) none =
      since14 (v.earlier w) (x.map (List.map h)) none := by
  cases v <;> cases w <;> first | rfl | exact optList_both fun _ _ y _ => e y

theorem since15_both {α : Type} {f g h : α → α} {x : Option (List α)} (e : ∀ y, f (g y) = h y) :
    since15 v ((since15 w (x.map (List.map g)) none).map (List.map f)) none =
      since15 (v.earlier w) (x.map (List.map h)) none := by
  cases v <;> cases w <;> first | rfl | exact optList_both fun _ _ y _ => e y

theorem since14_twice {α : Type} {x : Option α} :
    since14 v (since14 w x none) none = since14 (v.earlier w) x none := by
  cases v <;> cases w <;> rfl

theorem since15_twice {α : Type} {x : Option α} :
    since15 v (since15 w x none) none = since15 (v.earlier w) x none := by
  cases v <;> cases w <;> rfl

theorem Bom.at_both (x : Bom) :
    Bom.at v (Bom.at w x) = { Bom.at (v.earlier w) x with specVersion := v } := by
  simp only [Bom.at, optMap_both fun y _ => Metadata.at_both v w y,
    optList_both fun _ _ y _ => Component.at_both v w y, optList_both fun _ _ y _ => Service.at_both v w y,
    optList_both fun _ _ y _ => Composition.at_both v w y, since14_both v w (Vulnerability.at_both v w),
    since15_both v w (Annotation.at_both v w), since15_both v w (Formula.at_both v w), since14_twice, since15_twice]

/-! ### Whether a document can be written -/

theorem Bom.converts_both (x : Bom) : (Bom.at w x).converts v = x.converts v := by
  cases v with
  | v1_4 => rfl
  | v1_5 => rfl
  | v1_3 =>
    show ((match (x.metadata.map (Metadata.at w)) with
      | some m => (match m.component with | some c => c.converts13 | none => true)
      | none => true) && Component.converts13Opt (x.components.map (List.map (Component.at w)))) = _
    unfold Bom.converts
    congr 1
    · cases x.metadata with
      | none => rfl
      | some m =>
        show (match m.component.map (Component.at w) with | some c => c.converts13 | none => true) =
          (match m.component with | some c => c.converts13 | none => true)
        cases m.component with
        | none => rfl
        | some c => exact Component.converts13_at w c
    · rw [Bool.eq_iff_iff, Component.converts13Opt_iff, Component.converts13Opt_iff]
      cases x.components with
      | none => simp
      | some l => simp [Component.converts13_at]

variable {v w}

theorem Bom.toJson_both (h : v.ord ≤ w.ord) (x : Bom) : Bom.toJson v (Bom.at w x) = Bom.toJson v x := by
  rw [← Bom.toJson_at, Bom.at_both, SpecVersion.earlier, if_pos h]
  exact Bom.toJson_at v x

theorem Bom.writeXml_both (h : v.ord ≤ w.ord) (x : Bom) : Bom.writeXml v (Bom.at w x) = Bom.writeXml v x := by
  rw [← Bom.writeXml_at, Bom.at_both, SpecVersion.earlier, if_pos h]
  exact Bom.writeXml_at v x

theorem Bom.outputJson_both (h : v.ord ≤ w.ord) (x : Bom) : (Bom.at w x).outputJson v = x.outputJson v := by
  unfold Bom.outputJson
  rw [Bom.converts_both, Bom.toJson_both h]

theorem Bom.outputXml_both (h : v.ord ≤ w.ord) (x : Bom) : (Bom.at w x).outputXml v = x.outputXml v := by
  unfold Bom.outputXml
  rw [Bom.converts_both, Bom.writeXml_both h]

/-! ### What an older version has is kept by a newer one -/

section
variable {α : Type} {P Q : α → Prop} {x : Option α}

theorem gate15 (h : v = .v1_5 → ∀ y, x = some y → P y) : w = .v1_5 → ∀ y, since15 v x none = some y → P y := by
  intro _ y hy
  cases v with
  | v1_3 => cases hy
  | v1_4 => cases hy
  | v1_5 => exact h rfl y hy

theorem gate15n (h : v = .v1_5 → x = none) : w = .v1_5 → since15 v x none = none := by
  intro _
  cases v with
  | v1_3 => rfl
  | v1_4 => rfl
  | v1_5 => exact h rfl

theorem gate14 (h : v ≠ .v1_3 → ∀ y, x = some y → P y) : w ≠ .v1_3 → ∀ y, since14 v x none = some y → P y := by
  intro _ y hy
  cases v with
  | v1_3 => cases hy
  | v1_4 => exact h (by simp) y hy
  | v1_5 => exact h (by simp) y hy

theorem gate14n (h : v ≠ .v1_3 → x = none) : w ≠ .v1_3 → since14 v x none = none := by
  intro _
  cases v with
  | v1_3 => rfl
  | v1_4 => exact h (by simp)
  | v1_5 => exact h (by simp)

theorem map_up {f : α → α} (h : ∀ y, x = some y → P y) (e : ∀ y, x = some y → P y → Q (f y)) :
    ∀ z, x.map f = some z → Q z := by
  intro z hz
  cases x with
  | none => cases hz
  | some y =>
    cases hz
    exact e y rfl (h y rfl)

theorem list_up {f : α → α} {x : Option (List α)} (h : ∀ y, x = some y → ∀ z ∈ y, P z)
    (e : ∀ y, P y → Q (f y)) : ∀ y, x.map (List.map f) = some y → ∀ z ∈ y, Q z := by
  intro y hy z hz
  cases x with
  | none => cases hy
  | some l =>
    cases hy
    obtain ⟨a, ha, rfl⟩ := List.mem_map.1 hz
    exact e a (h l rfl a ha)

end

theorem License.json_up {x : License} (h : License.JsonOk v x) : License.JsonOk w (License.at v x) :=
  ⟨h.text, gate15 h.licensing⟩

theorem LicenseChoice.json_up {x : LicenseChoice} (h : LicenseChoice.JsonOk v x) :
    LicenseChoice.JsonOk w (LicenseChoice.at v x) := by
  cases x with
  | license l => exact License.json_up h
  | expression e => trivial

theorem Licenses.json_up {x : Licenses} (h : Licenses.JsonOk v x) : Licenses.JsonOk w (Licenses.at v x) := by
  intro z hz
  obtain ⟨a, ha, rfl⟩ := List.mem_map.1 hz
  exact LicenseChoice.json_up (h a ha)

theorem Composition.json_up {x : Composition} (h : Composition.JsonOk v x) :
    Composition.JsonOk w (Composition.at v x) := ⟨h.aggregate, gate14 h.signature⟩

theorem ServiceDataChoice.json_up {x : ServiceDataChoice} (h : ServiceDataChoice.JsonOk v x) :
    ServiceDataChoice.JsonOk w (ServiceDataChoice.at v x) := by
  cases x with
  | classification l => exact h
  | serviceData l =>
    have : ServiceDataChoice.JsonOk w (.classification (l.map (·.classification))) := by
      intro z hz
      obtain ⟨a, ha, rfl⟩ := List.mem_map.1 hz
      exact h.2 a ha
    cases v with
    | v1_3 => exact this
    | v1_4 => exact this
    | v1_5 => exact absurd rfl h.1

theorem ComponentEvidence.json_up {x : ComponentEvidence} (h : ComponentEvidence.JsonOk v x) :
    ComponentEvidence.JsonOk w (ComponentEvidence.at v x) :=
  ⟨map_up h.licenses fun _ _ => Licenses.json_up, gate15 h.callstack, gate15 h.identity⟩

theorem Service.json_upN : ∀ {n} {x : Service}, Service.JsonOkN v n x → Service.JsonOkN w n (Service.at v x)
  | 0, _, h => h
  | n + 1, x, h => by
    rw [Service.at_eq]
    exact ⟨map_up h.data fun _ _ => ServiceDataChoice.json_up, map_up h.licenses fun _ _ => Licenses.json_up,
      h.externalReferences, list_up h.services fun _ => Service.json_upN, gate14 h.signature⟩

theorem Component.json_upN (hle : v.ord ≤ w.ord) :
    ∀ {n} {x : Component}, Component.JsonOkN v n x → Component.JsonOkN w n (Component.at v x)
  | 0, _, h => h
  | n + 1, x, h => by
    rw [Component.at_eq]
    refine ⟨fun e => h.version ?_, h.componentType, h.scope, h.hashes, map_up h.licenses fun _ _ => Licenses.json_up,
      h.swid, map_up h.pedigree fun p _ hp => ?_, h.externalReferences,
      list_up h.components fun _ => Component.json_upN hle, map_up h.evidence fun _ _ => ComponentEvidence.json_up,
      gate14 h.signature, gate15 h.modelCard, gate15 h.data⟩
    · subst e
      cases v with
      | v1_3 => rfl
      | v1_4 => exact absurd hle (by decide)
      | v1_5 => exact absurd hle (by decide)
    · rw [Pedigree.at_eq]
      exact ⟨list_up hp.ancestors fun _ => Component.json_upN hle, list_up hp.descendants fun _ => Component.json_upN hle,
        list_up hp.variants fun _ => Component.json_upN hle, hp.patches⟩

theorem Tool.json_up {x : Tool} (h : Tool.JsonOk v x) : Tool.JsonOk w (Tool.at v x) :=
  ⟨h.hashes, gate14 h.externalReferences⟩

theorem Tools.json_up (hle : v.ord ≤ w.ord) {x : Tools} (h : Tools.JsonOk v x) :
    Tools.JsonOk w (Tools.at v x) := by
  cases x with
  | list l =>
    intro z hz
    obtain ⟨a, ha, rfl⟩ := List.mem_map.1 hz
    exact Tool.json_up (h a ha)
  | object s c =>
    cases v with
    | v1_3 => exact fun _ h => (nomatch h)
    | v1_4 => exact fun _ h => (nomatch h)
    | v1_5 =>
      intro _
      exact ⟨list_up (h rfl).1 fun _ => Service.json_upN, list_up (h rfl).2 fun _ => Component.json_upN hle⟩

theorem Metadata.json_up (hle : v.ord ≤ w.ord) {x : Metadata} (h : Metadata.JsonOk v x) :
    Metadata.JsonOk w (Metadata.at v x) :=
  ⟨map_up h.tools fun _ _ => Tools.json_up hle, map_up h.component fun _ _ => Component.json_upN hle,
    map_up h.licenses fun _ _ => Licenses.json_up, gate15 h.lifecycles⟩

theorem Vulnerability.json_up (hle : v.ord ≤ w.ord) {x : Vulnerability} (h : Vulnerability.JsonOk v x) :
    Vulnerability.JsonOk w (Vulnerability.at v x) :=
  ⟨h.vulnerabilityRatings, h.cwes, map_up h.tools fun _ _ => Tools.json_up hle,
    map_up h.vulnerabilityAnalysis fun _ _ h => ⟨h.state, h.justification, h.responses⟩, h.vulnerabilityTargets⟩

theorem Bom.json_up (hle : v.ord ≤ w.ord) {x : Bom} (h : Bom.JsonOk v x) : Bom.JsonOk w (Bom.at v x) := by
  have top : v = .v1_5 → w = .v1_5 := by
    rintro rfl
    cases w
    · exact absurd hle (by decide)
    · exact absurd hle (by decide)
    · rfl
  by_cases hv : v = .v1_5
  · cases hv
    cases top rfl
    rw [Bom.at_v1_5]
    exact ⟨h.version, h.metadata, h.components, h.services, h.externalReferences, h.compositions, h.vulnerabilities,
      h.signature, h.annotations, h.formulation⟩
  have none15 : ∀ {α : Type} {x : Option α}, since15 v x none = none := by
    intro α x
    cases v
    · rfl
    · rfl
    · exact absurd rfl hv
  refine ⟨h.version, map_up h.metadata fun _ _ => Metadata.json_up hle,
    list_up h.components fun _ => Component.json_upN hle, list_up h.services fun _ => Service.json_upN,
    h.externalReferences, list_up h.compositions fun _ => Composition.json_up, ?_, gate14 h.signature, ?_, ?_⟩
  · intro _ y hy
    cases v with
    | v1_3 => cases hy
    | v1_4 => exact list_up (h.vulnerabilities (by simp)) (fun _ => Vulnerability.json_up hle) y hy
    | v1_5 => exact absurd rfl hv
  · intro _ y hy
    have hy : since15 v _ none = some y := hy
    rw [none15] at hy
    cases hy
  · intro _ y hy
    have hy : since15 v _ none = some y := hy
    rw [none15] at hy
    cases hy

/-! ### The same for XML -/

theorem License.xml_up {x : License} (h : License.XmlOk v x) : License.XmlOk w (License.at v x) :=
  ⟨gate15n h.licensing, h.licenseIdentifier, h.text, h.url, gate15 h.properties⟩

theorem LicenseChoice.xml_up {x : LicenseChoice} (h : LicenseChoice.XmlOk v x) :
    LicenseChoice.XmlOk w (LicenseChoice.at v x) := by
  cases x with
  | license l => exact License.xml_up h
  | expression e => exact h

theorem Licenses.xml_up {x : Licenses} (h : Licenses.XmlOk v x) : Licenses.XmlOk w (Licenses.at v x) := by
  intro z hz
  obtain ⟨a, ha, rfl⟩ := List.mem_map.1 hz
  exact LicenseChoice.xml_up (h a ha)

macro "xml_up" : tactic => `(tactic| (
  constructor <;> first
    | assumption
    | exact gate15 (by assumption)
    | exact gate15n (by assumption)
    | exact gate14 (by assumption)
    | exact gate14n (by assumption)))

theorem Composition.xml_up {x : Composition} (h : Composition.XmlOk v x) :
    Composition.XmlOk w (Composition.at v x) := by
  cases h
  xml_up

theorem VulnerabilityAnalysis.xml_up {x : VulnerabilityAnalysis} (h : VulnerabilityAnalysis.XmlOk v x) :
    VulnerabilityAnalysis.XmlOk w (VulnerabilityAnalysis.at v x) := by
  cases h
  xml_up

theorem ServiceDataChoice.xml_up {x : ServiceDataChoice} (hle : v.ord ≤ w.ord) (h : ServiceDataChoice.XmlOk v x) :
    ServiceDataChoice.XmlOk w (ServiceDataChoice.at v x) := by
  cases x with
  | classification l => exact h
  | serviceData l =>
    have old : v ≠ .v1_5 → ServiceDataChoice.XmlOk w (.classification (l.map (·.classification))) := by
      intro hv z hz
      obtain ⟨a, ha, rfl⟩ := List.mem_map.1 hz
      exact h.2 hv a ha
    cases v with
    | v1_3 => exact old (by simp)
    | v1_4 => exact old (by simp)
    | v1_5 =>
      cases w
      · exact absurd hle (by decide)
      · exact absurd hle (by decide)
      · exact h

theorem ComponentEvidence.xml_up {x : ComponentEvidence} (h : ComponentEvidence.XmlOk v x) :
    ComponentEvidence.XmlOk w (ComponentEvidence.at v x) :=
  ⟨gate15n h.occurrences, gate15n h.callstack, gate15n h.identity, map_up h.licenses fun _ _ => Licenses.xml_up,
    h.copyright⟩

theorem Service.xml_upN (hle : v.ord ≤ w.ord) :
    ∀ {n} {x : Service}, Service.XmlOkN v n x → Service.XmlOkN w n (Service.at v x)
  | 0, _, h => h
  | n + 1, x, h => by
    rw [Service.at_eq]
    exact ⟨h.provider, h.group, h.name, h.version, h.description, h.endpoints,
      map_up h.data fun _ _ => ServiceDataChoice.xml_up hle, map_up h.licenses fun _ _ => Licenses.xml_up,
      h.externalReferences, h.properties, list_up h.services fun _ => Service.xml_upN hle, gate14 h.signature,
      gate15 h.trustZone⟩

theorem Component.xml_upN (hle : v.ord ≤ w.ord) :
    ∀ {n} {x : Component}, Component.XmlOkN v n x → Component.XmlOkN w n (Component.at v x)
  | 0, _, h => h
  | n + 1, x, h => by
    rw [Component.at_eq]
    refine ⟨h.componentType, h.supplier, h.author, h.publisher, h.group, h.name, fun e => h.version_some ?_, h.version,
      h.description, h.scope, h.hashes, map_up h.licenses fun _ _ => Licenses.xml_up, h.copyright, h.cpe, h.purl,
      h.swid, map_up h.pedigree fun p _ hp => ?_, h.externalReferences, h.properties,
      list_up h.components fun _ => Component.xml_upN hle,
      map_up h.evidence fun y _ h => ⟨ComponentEvidence.xml_up h.1, (ComponentEvidence.willWrite_at v y).trans h.2⟩,
      gate14 h.signature, gate15 h.modelCard, gate15 h.data⟩
    · subst e
      cases v with
      | v1_3 => rfl
      | v1_4 => exact absurd hle (by decide)
      | v1_5 => exact absurd hle (by decide)
    · rw [Pedigree.at_eq]
      exact ⟨list_up hp.ancestors fun _ => Component.xml_upN hle, list_up hp.descendants fun _ => Component.xml_upN hle,
        list_up hp.variants fun _ => Component.xml_upN hle, hp.commits, hp.patches, hp.notes⟩

theorem Tool.xml_up {x : Tool} (h : Tool.XmlOk v x) : Tool.XmlOk w (Tool.at v x) :=
  ⟨h.vendor, h.name, h.version, h.hashes, gate14 h.externalReferences⟩

theorem Tools.xml_up (hle : v.ord ≤ w.ord) {x : Tools} (he : w = .v1_5 → Tools.at v x ≠ .list [])
    (h : Tools.XmlOk v x) : Tools.XmlOk w (Tools.at v x) := by
  cases x with
  | list l =>
    refine ⟨fun hw e => he hw ?_, fun z hz => ?_⟩
    · show Tools.list (l.map (Tool.at v)) = _
      rw [e]
    · obtain ⟨a, ha, rfl⟩ := List.mem_map.1 hz
      exact Tool.xml_up (h.2 a ha)
  | object s c =>
    cases v with
    | v1_3 => exact ⟨fun hw => absurd rfl (he hw), fun _ h => (nomatch h)⟩
    | v1_4 => exact ⟨fun hw => absurd rfl (he hw), fun _ h => (nomatch h)⟩
    | v1_5 =>
      intro _
      exact ⟨list_up (h rfl).1 fun _ => Service.xml_upN hle, list_up (h rfl).2 fun _ => Component.xml_upN hle⟩

theorem Metadata.xml_up (hle : v.ord ≤ w.ord) {x : Metadata}
    (he : w = .v1_5 → (Metadata.at v x).tools ≠ some (.list [])) (h : Metadata.XmlOk v x) :
    Metadata.XmlOk w (Metadata.at v x) :=
  ⟨h.timestamp, map_up h.tools fun y hy => Tools.xml_up hle fun hw e => he hw (by
      show x.tools.map (Tools.at v) = _
      rw [hy, Option.map_some, e]), h.authors,
    map_up h.component fun _ _ => Component.xml_upN hle, h.manufacture, h.supplier,
    map_up h.licenses fun _ _ => Licenses.xml_up, h.properties, gate15 h.lifecycles⟩

theorem Vulnerability.xml_up (hle : v.ord ≤ w.ord) {x : Vulnerability}
    (he : w = .v1_5 → (Vulnerability.at v x).tools ≠ some (.list [])) (h : Vulnerability.XmlOk v x) :
    Vulnerability.XmlOk w (Vulnerability.at v x) :=
  ⟨gate15n h.proofOfConcept, h.id, h.vulnerabilitySource, h.vulnerabilityReferences, h.vulnerabilityRatings, h.cwes,
    h.description, h.detail, h.recommendation, h.advisories, h.created, h.published, h.updated, gate15 h.rejected,
    h.vulnerabilityCredits, map_up h.tools fun y hy => Tools.xml_up hle fun hw e => he hw (by
      show x.tools.map (Tools.at v) = _
      rw [hy, Option.map_some, e]),
    map_up h.vulnerabilityAnalysis fun _ _ => VulnerabilityAnalysis.xml_up, h.vulnerabilityTargets, h.properties,
    gate15 h.workaround⟩

theorem Bom.xml_up (hle : v.ord ≤ w.ord) {x : Bom}
    (he : w = .v1_5 → (∀ m, (Bom.at v x).metadata = some m → m.tools ≠ some (.list [])) ∧
      ∀ l, (Bom.at v x).vulnerabilities = some l → ∀ y ∈ l, y.tools ≠ some (.list []))
    (h : Bom.XmlOk v x) : Bom.XmlOk w (Bom.at v x) := by
  have top : v = .v1_5 → w = .v1_5 := by
    rintro rfl
    cases w
    · exact absurd hle (by decide)
    · exact absurd hle (by decide)
    · rfl
  by_cases hv : v = .v1_5
  · cases hv
    cases top rfl
    rw [Bom.at_v1_5]
    cases h
    constructor <;> assumption
  have none15 : ∀ {α : Type} {x : Option α}, since15 v x none = none := by
    intro α x
    cases v
    · rfl
    · rfl
    · exact absurd rfl hv
  refine ⟨h.version, gate14n h.signature, fun _ => none15, map_up h.metadata fun m hm => Metadata.xml_up hle fun hw =>
      (he hw).1 _ (by
        show x.metadata.map (Metadata.at v) = _
        rw [hm, Option.map_some]),
    list_up h.components fun _ => Component.xml_upN hle, list_up h.services fun _ => Service.xml_upN hle,
    h.externalReferences, list_up h.compositions fun _ => Composition.xml_up, gate15 h.properties, ?_, ?_⟩
  · intro _ y hy z hz
    cases v with
    | v1_3 => cases hy
    | v1_4 =>
      have hy' : x.vulnerabilities.map (List.map (Vulnerability.at .v1_4)) = some y := hy
      cases hx : x.vulnerabilities with
      | none =>
        rw [hx] at hy'
        cases hy'
      | some l =>
        rw [hx] at hy'
        cases hy'
        have hz' := hz
        obtain ⟨a, ha, rfl⟩ := List.mem_map.1 hz
        exact Vulnerability.xml_up hle (fun hw => (he hw).2 _ hy _ hz') (h.vulnerabilities (by simp) l hx a ha)
    | v1_5 => exact absurd rfl hv
  · intro _ y hy
    have hy : since15 v _ none = some y := hy
    rw [none15] at hy
    cases hy

end Cdx
