import Verif.Lemmas.Gets.Formulation

set_option linter.unusedSectionVars false
set_option linter.unusedSimpArgs false
set_option linter.unusedVariables false

/-!
# What the readers of components, services and the parts made of them return
-/

namespace Cdx

variable [F32Format] [ReadLimit] {v w : SpecVersion}

theorem version_eq {field : String} {el : XName} {o x : Option String} (hu : v.ord ≤ w.ord)
    (h : since14 v (.ok o) ((required field el o).map some) = (.ok x : Except XErr (Option String))) :
    x = o ∧ (w = .v1_3 → o ≠ none) := by
  cases v with
  | v1_3 =>
    obtain ⟨y, hy, rfl⟩ := xmap h
    rw [required_eq hy]
    exact ⟨rfl, fun _ => nofun⟩
  | v1_4 => cases h; exact ⟨rfl, fun e => by subst e; exact absurd hu (by decide)⟩
  | v1_5 => cases h; exact ⟨rfl, fun e => by subst e; exact absurd hu (by decide)⟩

/-- What is known of the local variables of the reader of `Pedigree`. -/
structure Pedigree.Vars.Got (K O : Component → Prop) (v : SpecVersion) (s : Pedigree.Vars) : Prop where
  ancestors : ∀ y, s.ancestors = some y → ∀ z ∈ y, (K z → O z) ∧ Component.at v z = z
  descendants : ∀ y, s.descendants = some y → ∀ z ∈ y, (K z → O z) ∧ Component.at v z = z
  variants : ∀ y, s.variants = some y → ∀ z ∈ y, (K z → O z) ∧ Component.at v z = z
  commits : ∀ y, s.commits = some y → ∀ z ∈ y, Commit.XmlOk z
  patches : ∀ y, s.patches = some y → ∀ z ∈ y, (Patch.XmlKept z → Patch.XmlOk z)
  notes : ∀ y, s.notes = some y → Trimmed y

theorem Pedigree.gets_with (hu : v.ord ≤ w.ord) {sub : XElem Component} {K O : Component → Prop}
    (hsub : Gets sub fun z => (K z → O z) ∧ Component.at w z = z) :
    Gets (Pedigree.readXmlWith sub v) fun x => (Pedigree.XmlKeptWith K w x → Pedigree.XmlOkWith O w x) ∧ Pedigree.at w x = x := by
  unfold Pedigree.readXmlWith
  refine struct_gets (Pedigree.Vars.Got K O w) { ancestors := noneAll, descendants := noneAll, variants := noneAll, commits := noneAll, patches := noneAll, notes := noneAll } ?_ ?_
  · unfold Pedigree.armsWith
    exact armsGetCons (arm_gets (list_gets hsub) fun y s h hy => { h with ancestors := fun z e => by cases e; exact hy }) <|
      armsGetCons (arm_gets (list_gets hsub) fun y s h hy => { h with descendants := fun z e => by cases e; exact hy }) <|
      armsGetCons (arm_gets (list_gets hsub) fun y s h hy => { h with variants := fun z e => by cases e; exact hy }) <|
      armsGetCons (arm_gets (list_gets Commit.gets) fun y s h hy => { h with commits := fun z e => by cases e; exact hy }) <|
      armsGetCons (arm_gets (list_gets Patch.gets) fun y s h hy => { h with patches := fun z e => by cases e; exact hy }) <|
      armsGetCons (arm_gets readSimple_gets fun y s h hy => { h with notes := fun z e => by cases e; exact hy }) <|
      armsGetNil
  · intro el attrs p s x hp hs h
    cases h
    have a_ancestors : Component.atOpt w s.ancestors = s.ancestors := by rw [Component.atOpt_eq]; exact optMap_id fun y hy => listMap_id fun z hz => (hs.ancestors y hy z hz).2
    have a_descendants : Component.atOpt w s.descendants = s.descendants := by rw [Component.atOpt_eq]; exact optMap_id fun y hy => listMap_id fun z hz => (hs.descendants y hy z hz).2
    have a_variants : Component.atOpt w s.variants = s.variants := by rw [Component.atOpt_eq]; exact optMap_id fun y hy => listMap_id fun z hz => (hs.variants y hy z hz).2
    exact ⟨fun hk => { ancestors := fun y hy z hz => (hs.ancestors y hy z hz).1 (hk.ancestors y hy z hz),
                       descendants := fun y hy z hz => (hs.descendants y hy z hz).1 (hk.descendants y hy z hz),
                       variants := fun y hy z hz => (hs.variants y hy z hz).1 (hk.variants y hy z hz),
                       commits := fun y hy z hz => (hs.commits y hy z hz),
                       patches := fun y hy z hz => (hs.patches y hy z hz) (hk.patches y hy z hz),
                       notes := fun y hy => hs.notes y hy }, by simp only [Pedigree.at, a_ancestors, a_descendants, a_variants]⟩

/-- What is known of the local variables of the reader of `Component`. -/
structure Component.Vars.Got (K O : Component → Prop) (v : SpecVersion) (s : Component.Vars) : Prop where
  supplier : ∀ y, s.supplier = some y → (OrganizationalEntity.XmlKept y → OrganizationalEntity.XmlOk y)
  author : ∀ y, s.author = some y → Trimmed y
  publisher : ∀ y, s.publisher = some y → Trimmed y
  group : ∀ y, s.group = some y → Trimmed y
  name : ∀ y, s.name = some y → Trimmed y
  version : ∀ y, s.version = some y → Trimmed y
  description : ∀ y, s.description = some y → Trimmed y
  scope : ∀ y, s.scope = some y → Stable Scope.display Scope.new y ∧ Trimmed (Scope.display y)
  hashes : ∀ y, s.hashes = some y → ∀ z ∈ y, Hash.XmlOk z
  licenses : ∀ y, s.licenses = some y → (Licenses.XmlKept v y → Licenses.XmlOk v y) ∧ Licenses.at v y = y
  copyright : ∀ y, s.copyright = some y → Trimmed y
  cpe : ∀ y, s.cpe = some y → Trimmed y
  purl : ∀ y, s.purl = some y → Trimmed y
  swid : ∀ y, s.swid = some y → Swid.XmlOk y
  pedigree : ∀ y, s.pedigree = some y → (Pedigree.XmlKeptWith K v y → Pedigree.XmlOkWith O v y) ∧ Pedigree.at v y = y
  externalReferences : ∀ y, s.externalReferences = some y → ∀ z ∈ y, (ExternalReference.XmlKept z → ExternalReference.XmlOk z)
  properties : ∀ y, s.properties = some y → ∀ z ∈ y, Property.XmlOk z
  components : ∀ y, s.components = some y → ∀ z ∈ y, (K z → O z) ∧ Component.at v z = z
  evidence : ∀ y, s.evidence = some y → (ComponentEvidence.XmlKept v y → ComponentEvidence.XmlOk v y) ∧ ComponentEvidence.at v y = y
  signature : ∀ y, s.signature = some y → Signature.XmlOk y
  signature_none : v = .v1_3 → s.signature = none
  modelCard : ∀ y, s.modelCard = some y → (ModelCard.XmlKept y → ModelCard.XmlOk y)
  modelCard_none : v ≠ .v1_5 → s.modelCard = none
  data : ∀ y, s.data = some y → (ComponentData.XmlKept y → ComponentData.XmlOk y)
  data_none : v ≠ .v1_5 → s.data = none

theorem Component.gets_with (hu : v.ord ≤ w.ord) {sub : XElem Component} {K O : Component → Prop}
    (hsub : Gets sub fun z => (K z → O z) ∧ Component.at w z = z) :
    Gets (Component.readXmlWith sub v) fun x => (Component.XmlKeptWith K w x → Component.XmlOkWith O w x) ∧ Component.at w x = x := by
  unfold Component.readXmlWith
  refine struct_gets (Component.Vars.Got K O w) { supplier := noneAll, author := noneAll, publisher := noneAll, group := noneAll, name := noneAll, version := noneAll, description := noneAll, scope := noneAll, hashes := noneAll, licenses := noneAll, copyright := noneAll, cpe := noneAll, purl := noneAll, swid := noneAll, pedigree := noneAll, externalReferences := noneAll, properties := noneAll, components := noneAll, evidence := noneAll, signature := noneAll, signature_none := fun _ => rfl, modelCard := noneAll, modelCard_none := fun _ => rfl, data := noneAll, data_none := fun _ => rfl } ?_ ?_
  · unfold Component.armsWith
    exact (armsGetAppend (armsGetAppend (armsGetCons (arm_gets OrganizationalEntity.gets fun y s h hy => { h with supplier := fun z e => by cases e; exact hy }) <|
      armsGetCons (arm_gets readSimple_gets fun y s h hy => { h with author := fun z e => by cases e; exact hy }) <|
      armsGetCons (arm_gets readSimple_gets fun y s h hy => { h with publisher := fun z e => by cases e; exact hy }) <|
      armsGetCons (arm_gets readSimple_gets fun y s h hy => { h with group := fun z e => by cases e; exact hy }) <|
      armsGetCons (arm_gets readSimple_gets fun y s h hy => { h with name := fun z e => by cases e; exact hy }) <|
      armsGetCons (arm_gets readSimple_gets fun y s h hy => { h with version := fun z e => by cases e; exact hy }) <|
      armsGetCons (arm_gets readSimple_gets fun y s h hy => { h with description := fun z e => by cases e; exact hy }) <|
      armsGetCons (arm_gets (enum_gets Scope.new_stable Scope.display_new) fun y s h hy => { h with scope := fun z e => by cases e; exact hy }) <|
      armsGetCons (arm_gets (list_gets Hash.gets) fun y s h hy => { h with hashes := fun z e => by cases e; exact hy }) <|
      armsGetCons (arm_gets (Licenses.gets hu) fun y s h hy => { h with licenses := fun z e => by cases e; exact hy }) <|
      armsGetCons (arm_gets readSimple_gets fun y s h hy => { h with copyright := fun z e => by cases e; exact hy }) <|
      armsGetCons (arm_gets readSimple_gets fun y s h hy => { h with cpe := fun z e => by cases e; exact hy }) <|
      armsGetCons (arm_gets readSimple_gets fun y s h hy => { h with purl := fun z e => by cases e; exact hy }) <|
      armsGetCons (arm_gets Swid.gets fun y s h hy => { h with swid := fun z e => by cases e; exact hy }) <|
      armsGetCons (arm_gets readBool_gets fun y s h _ => { h with  }) <|
      armsGetCons (arm_gets (Pedigree.gets_with hu hsub) fun y s h hy => { h with pedigree := fun z e => by cases e; exact hy }) <|
      armsGetCons (arm_gets (list_gets ExternalReference.gets) fun y s h hy => { h with externalReferences := fun z e => by cases e; exact hy }) <|
      armsGetCons (arm_gets (list_gets Property.gets) fun y s h hy => { h with properties := fun z e => by cases e; exact hy }) <|
      armsGetCons (arm_gets (list_gets hsub) fun y s h hy => { h with components := fun z e => by cases e; exact hy }) <|
      armsGetCons (arm_gets (ComponentEvidence.gets hu) fun y s h hy => { h with evidence := fun z e => by cases e; exact hy }) <|
      armsGetNil)
      (armsGet14 hu fun hv => armsGetCons (arm_gets Signature.gets fun y s h hy => { h with signature := fun z e => by cases e; exact hy, signature_none := fun e => absurd e hv }) <|
      armsGetNil))
      (armsGet15 hu fun hv => armsGetCons (arm_gets ModelCard.gets fun y s h hy => { h with modelCard := fun z e => by cases e; exact hy, modelCard_none := fun e => absurd hv e }) <|
      armsGetCons (arm_gets ComponentData.gets fun y s h hy => { h with data := fun z e => by cases e; exact hy, data_none := fun e => absurd hv e }) <|
      armsGetNil))
  · intro el attrs p s x hp hs h
    obtain ⟨a0, a1, a2⟩ := p
    obtain ⟨name', e_name, h⟩ := xbind h
    have e_name := required_eq e_name
    obtain ⟨version', e0, h⟩ := xbind h
    obtain ⟨e1, e_version⟩ := version_eq hu e0
    subst e1
    cases h
    have a_components : Component.atOpt w s.components = s.components := by rw [Component.atOpt_eq]; exact optMap_id fun y hy => listMap_id fun z hz => (hs.components y hy z hz).2
    have n_data : since15 w s.data none = s.data := since15_none hs.data_none
    have a_evidence : s.evidence.map (ComponentEvidence.at w) = s.evidence := optMap_id fun y hy => (hs.evidence y hy).2
    have a_licenses : s.licenses.map (Licenses.at w) = s.licenses := optMap_id fun y hy => (hs.licenses y hy).2
    have n_modelCard : since15 w s.modelCard none = s.modelCard := since15_none hs.modelCard_none
    have a_pedigree : Pedigree.atOpt w s.pedigree = s.pedigree := by rw [Pedigree.atOpt_eq]; exact optMap_id fun y hy => (hs.pedigree y hy).2
    have n_signature : since14 w s.signature none = s.signature := since14_none hs.signature_none
    exact ⟨fun hk => { componentType := Classification.new_stable _,
                       supplier := fun y hy => ⟨(hs.supplier y hy) (hk.supplier y hy).1, (hk.supplier y hy).2⟩,
                       author := fun y hy => hs.author y hy,
                       publisher := fun y hy => hs.publisher y hy,
                       group := fun y hy => hs.group y hy,
                       name := hs.name _ e_name,
                       version_some := fun hv => e_version hv,
                       version := fun y hy => hs.version y hy,
                       description := fun y hy => hs.description y hy,
                       scope := fun y hy => ⟨(hs.scope y hy).1, (hs.scope y hy).2⟩,
                       hashes := fun y hy z hz => (hs.hashes y hy z hz),
                       licenses := fun y hy => (hs.licenses y hy).1 (hk.licenses y hy),
                       copyright := fun y hy => hs.copyright y hy,
                       cpe := fun y hy => hs.cpe y hy,
                       purl := fun y hy => hs.purl y hy,
                       swid := fun y hy => (hs.swid y hy),
                       pedigree := fun y hy => (hs.pedigree y hy).1 (hk.pedigree y hy),
                       externalReferences := fun y hy z hz => (hs.externalReferences y hy z hz) (hk.externalReferences y hy z hz),
                       properties := fun y hy z hz => (hs.properties y hy z hz),
                       components := fun y hy z hz => (hs.components y hy z hz).1 (hk.components y hy z hz),
                       evidence := fun y hy => ⟨(hs.evidence y hy).1 (hk.evidence y hy).1, (hk.evidence y hy).2⟩,
                       signature := fun hv y hy => (hs.signature y hy),
                       modelCard := fun hv y hy => (hs.modelCard y hy) (hk.modelCard hv y hy),
                       data := fun hv y hy => (hs.data y hy) (hk.data hv y hy) }, by simp only [Component.at, a_components, n_data, a_evidence, a_licenses, n_modelCard, a_pedigree, n_signature]⟩

theorem Component.gets_n (hu : v.ord ≤ w.ord) : ∀ n, Gets (Component.readXmlN v n) fun x =>
    (Component.XmlKeptN w n x → Component.XmlOkN w n x) ∧ Component.at w x = x
  | 0 => fun _ _ _ _ _ _ h => by cases h
  | n + 1 => Component.gets_with hu (Component.gets_n hu n)

theorem Component.gets (hu : v.ord ≤ w.ord) : Gets (Component.readXml v) fun x =>
    (Component.XmlKept w x → Component.XmlOk w x) ∧ Component.at w x = x := Component.gets_n hu ReadLimit.limit

/-- What is known of the local variables of the reader of `Service`. -/
structure Service.Vars.Got (K O : Service → Prop) (v : SpecVersion) (s : Service.Vars) : Prop where
  provider : ∀ y, s.provider = some y → (OrganizationalEntity.XmlKept y → OrganizationalEntity.XmlOk y)
  group : ∀ y, s.group = some y → Trimmed y
  name : ∀ y, s.name = some y → Trimmed y
  version : ∀ y, s.version = some y → Trimmed y
  description : ∀ y, s.description = some y → Trimmed y
  endpoints : ∀ y, s.endpoints = some y → ∀ z ∈ y, Trimmed z
  data : ∀ y, s.data = some y → (ServiceDataChoice.XmlKept y → ServiceDataChoice.XmlOk v y) ∧ ServiceDataChoice.at v y = y
  licenses : ∀ y, s.licenses = some y → (Licenses.XmlKept v y → Licenses.XmlOk v y) ∧ Licenses.at v y = y
  externalReferences : ∀ y, s.externalReferences = some y → ∀ z ∈ y, (ExternalReference.XmlKept z → ExternalReference.XmlOk z)
  properties : ∀ y, s.properties = some y → ∀ z ∈ y, Property.XmlOk z
  services : ∀ y, s.services = some y → ∀ z ∈ y, (K z → O z) ∧ Service.at v z = z
  signature : ∀ y, s.signature = some y → Signature.XmlOk y
  signature_none : v = .v1_3 → s.signature = none
  trustZone : ∀ y, s.trustZone = some y → Trimmed y
  trustZone_none : v ≠ .v1_5 → s.trustZone = none

theorem Service.gets_with (hu : v.ord ≤ w.ord) {sub : XElem Service} {K O : Service → Prop}
    (hsub : Gets sub fun z => (K z → O z) ∧ Service.at w z = z) :
    Gets (Service.readXmlWith sub v) fun x => (Service.XmlKeptWith K w x → Service.XmlOkWith O w x) ∧ Service.at w x = x := by
  unfold Service.readXmlWith
  refine struct_gets (Service.Vars.Got K O w) { provider := noneAll, group := noneAll, name := noneAll, version := noneAll, description := noneAll, endpoints := noneAll, data := noneAll, licenses := noneAll, externalReferences := noneAll, properties := noneAll, services := noneAll, signature := noneAll, signature_none := fun _ => rfl, trustZone := noneAll, trustZone_none := fun _ => rfl } ?_ ?_
  · unfold Service.armsWith
    exact (armsGetAppend (armsGetAppend (armsGetCons (arm_gets OrganizationalEntity.gets fun y s h hy => { h with provider := fun z e => by cases e; exact hy }) <|
      armsGetCons (arm_gets readSimple_gets fun y s h hy => { h with group := fun z e => by cases e; exact hy }) <|
      armsGetCons (arm_gets readSimple_gets fun y s h hy => { h with name := fun z e => by cases e; exact hy }) <|
      armsGetCons (arm_gets readSimple_gets fun y s h hy => { h with version := fun z e => by cases e; exact hy }) <|
      armsGetCons (arm_gets readSimple_gets fun y s h hy => { h with description := fun z e => by cases e; exact hy }) <|
      armsGetCons (arm_gets (list_gets readSimple_gets) fun y s h hy => { h with endpoints := fun z e => by cases e; exact hy }) <|
      armsGetCons (arm_gets readBool_gets fun y s h _ => { h with  }) <|
      armsGetCons (arm_gets readBool_gets fun y s h _ => { h with  }) <|
      armsGetCons (arm_gets (ServiceDataChoice.gets hu) fun y s h hy => { h with data := fun z e => by cases e; exact hy }) <|
      armsGetCons (arm_gets (Licenses.gets hu) fun y s h hy => { h with licenses := fun z e => by cases e; exact hy }) <|
      armsGetCons (arm_gets (list_gets ExternalReference.gets) fun y s h hy => { h with externalReferences := fun z e => by cases e; exact hy }) <|
      armsGetCons (arm_gets (list_gets Property.gets) fun y s h hy => { h with properties := fun z e => by cases e; exact hy }) <|
      armsGetCons (arm_gets (list_gets hsub) fun y s h hy => { h with services := fun z e => by cases e; exact hy }) <|
      armsGetNil)
      (armsGet14 hu fun hv => armsGetCons (arm_gets Signature.gets fun y s h hy => { h with signature := fun z e => by cases e; exact hy, signature_none := fun e => absurd e hv }) <|
      armsGetNil))
      (armsGet15 hu fun hv => armsGetCons (arm_gets readSimple_gets fun y s h hy => { h with trustZone := fun z e => by cases e; exact hy, trustZone_none := fun e => absurd hv e }) <|
      armsGetNil))
  · intro el attrs p s x hp hs h
    obtain ⟨name', e_name, h⟩ := xbind h
    have e_name := required_eq e_name
    cases h
    have a_data : s.data.map (ServiceDataChoice.at w) = s.data := optMap_id fun y hy => (hs.data y hy).2
    have a_licenses : s.licenses.map (Licenses.at w) = s.licenses := optMap_id fun y hy => (hs.licenses y hy).2
    have a_services : Service.atOpt w s.services = s.services := by rw [Service.atOpt_eq]; exact optMap_id fun y hy => listMap_id fun z hz => (hs.services y hy z hz).2
    have n_signature : since14 w s.signature none = s.signature := since14_none hs.signature_none
    have n_trustZone : since15 w s.trustZone none = s.trustZone := since15_none hs.trustZone_none
    exact ⟨fun hk => { provider := fun y hy => (hs.provider y hy) (hk.provider y hy),
                       group := fun y hy => hs.group y hy,
                       name := hs.name _ e_name,
                       version := fun y hy => hs.version y hy,
                       description := fun y hy => hs.description y hy,
                       endpoints := fun y hy z hz => hs.endpoints y hy z hz,
                       data := fun y hy => (hs.data y hy).1 (hk.data y hy),
                       licenses := fun y hy => (hs.licenses y hy).1 (hk.licenses y hy),
                       externalReferences := fun y hy z hz => (hs.externalReferences y hy z hz) (hk.externalReferences y hy z hz),
                       properties := fun y hy z hz => (hs.properties y hy z hz),
                       services := fun y hy z hz => (hs.services y hy z hz).1 (hk.services y hy z hz),
                       signature := fun hv y hy => (hs.signature y hy),
                       trustZone := fun hv y hy => hs.trustZone y hy }, by simp only [Service.at, a_data, a_licenses, a_services, n_signature, n_trustZone]⟩

theorem Service.gets_n (hu : v.ord ≤ w.ord) : ∀ n, Gets (Service.readXmlN v n) fun x =>
    (Service.XmlKeptN w n x → Service.XmlOkN w n x) ∧ Service.at w x = x
  | 0 => fun _ _ _ _ _ _ h => by cases h
  | n + 1 => Service.gets_with hu (Service.gets_n hu n)

theorem Service.gets (hu : v.ord ≤ w.ord) : Gets (Service.readXml v) fun x =>
    (Service.XmlKept w x → Service.XmlOk w x) ∧ Service.at w x = x := Service.gets_n hu ReadLimit.limit

/-- What is known of the local variables of the reader of `Tool`. -/
structure Tool.Vars.Got (v : SpecVersion) (s : Tool.Vars) : Prop where
  vendor : ∀ y, s.vendor = some y → Trimmed y
  name : ∀ y, s.name = some y → Trimmed y
  version : ∀ y, s.version = some y → Trimmed y
  hashes : ∀ y, s.hashes = some y → ∀ z ∈ y, Hash.XmlOk z
  externalReferences : ∀ y, s.externalReferences = some y → ∀ z ∈ y, (ExternalReference.XmlKept z → ExternalReference.XmlOk z)
  externalReferences_none : v = .v1_3 → s.externalReferences = none

theorem Tool.gets (hu : v.ord ≤ w.ord) : Gets (Tool.readXml v) fun x => (Tool.XmlKept w x → Tool.XmlOk w x) ∧ Tool.at w x = x := by
  unfold Tool.readXml
  refine struct_gets (Tool.Vars.Got w) { vendor := noneAll, name := noneAll, version := noneAll, hashes := noneAll, externalReferences := noneAll, externalReferences_none := fun _ => rfl } ?_ ?_
  · unfold Tool.arms
    exact (armsGetAppend (armsGetCons (arm_gets readSimple_gets fun y s h hy => { h with vendor := fun z e => by cases e; exact hy }) <|
      armsGetCons (arm_gets readSimple_gets fun y s h hy => { h with name := fun z e => by cases e; exact hy }) <|
      armsGetCons (arm_gets readSimple_gets fun y s h hy => { h with version := fun z e => by cases e; exact hy }) <|
      armsGetCons (arm_gets (list_gets Hash.gets) fun y s h hy => { h with hashes := fun z e => by cases e; exact hy }) <|
      armsGetNil)
      (armsGet14 hu fun hv => armsGetCons (arm_gets (list_gets ExternalReference.gets) fun y s h hy => { h with externalReferences := fun z e => by cases e; exact hy, externalReferences_none := fun e => absurd e hv }) <|
      armsGetNil))
  · intro el attrs p s x hp hs h
    cases h
    have n_externalReferences : since14 w s.externalReferences none = s.externalReferences := since14_none hs.externalReferences_none
    exact ⟨fun hk => { vendor := fun y hy => hs.vendor y hy,
                       name := fun y hy => hs.name y hy,
                       version := fun y hy => hs.version y hy,
                       hashes := fun y hy z hz => (hs.hashes y hy z hz),
                       externalReferences := fun hv y hy z hz => (hs.externalReferences y hy z hz) (hk.externalReferences hv y hy z hz) }, by simp only [Tool.at, n_externalReferences]⟩

/-- What is known of the local variables of the reader of `Tools`. -/
structure Tools.Vars.Got (v : SpecVersion) (s : Tools.Vars) : Prop where
  tools : ∀ y, s.tools = some y → ∀ z ∈ y, (Tool.XmlKept v z → Tool.XmlOk v z) ∧ Tool.at v z = z
  tools_ne : s.tools ≠ some []
  components : ∀ y, s.components = some y → ∀ z ∈ y, (Component.XmlKept v z → Component.XmlOk v z) ∧ Component.at v z = z
  services : ∀ y, s.services = some y → ∀ z ∈ y, (Service.XmlKept v z → Service.XmlOk v z) ∧ Service.at v z = z

theorem Tools.gets (hu : v.ord ≤ w.ord) : Gets (Tools.readXml v) fun x => (Tools.XmlKept w x → Tools.XmlOk w x) ∧ Tools.at w x = x := by
  unfold Tools.readXml
  refine struct_gets (Tools.Vars.Got w) { tools := noneAll, tools_ne := nofun, components := noneAll, services := noneAll } ?_ ?_
  · unfold Tools.arms
    exact (armsGetAppend (armsGetCons (arm_gets (Tool.gets hu) fun y s h hy =>
        { h with tools := fun z e => by cases e; exact getD_append h.tools hy, tools_ne := fun e => by simp at e }) armsGetNil)
      (armsGet15 hu fun hv => armsGetCons (arm_gets (list_gets (Component.gets hu)) fun y s h hy =>
          { h with components := fun z e => by cases e; exact hy }) <|
        armsGetCons (arm_gets (list_gets (Service.gets hu)) fun y s h hy =>
          { h with services := fun z e => by cases e; exact hy }) armsGetNil))
  · intro el attrs p s x hp hs h
    split at h
    · rename_i l e
      split at h
      · cases h
      · cases h
        exact ⟨fun hk => ⟨fun _ e0 => hs.tools_ne (by rw [e, e0]), fun z hz => (hs.tools _ e z hz).1 (hk.2 z hz)⟩,
          congrArg Tools.list (listMap_id fun z hz => (hs.tools _ e z hz).2)⟩
    · have object : w = .v1_5 → Tools.at w (.object s.services s.components) = .object s.services s.components := by
        intro e
        subst e
        have e1 : s.services.map (List.map (Service.at .v1_5)) = s.services :=
          optMap_id fun y hy => listMap_id fun z hz => (hs.services y hy z hz).2
        have e2 : s.components.map (List.map (Component.at .v1_5)) = s.components :=
          optMap_id fun y hy => listMap_id fun z hz => (hs.components y hy z hz).2
        simp only [Tools.at, e1, e2]; rfl
      cases v with
      | v1_3 => cases h; exact ⟨fun hk => ⟨hk.1, nofun⟩, rfl⟩
      | v1_4 => cases h; exact ⟨fun hk => ⟨hk.1, nofun⟩, rfl⟩
      | v1_5 =>
        have e5 : w = .v1_5 := by cases w <;> first | rfl | exact absurd hu (by decide)
        subst e5
        cases h
        exact ⟨fun hk _ => ⟨fun l e z hz => (hs.services l e z hz).1 (hk.1 l e z hz),
          fun l e z hz => (hs.components l e z hz).1 (hk.2 l e z hz)⟩, object rfl⟩

/-- What is known of the local variables of the reader of `Metadata`. -/
structure Metadata.Vars.Got (v : SpecVersion) (s : Metadata.Vars) : Prop where
  timestamp : ∀ y, s.timestamp = some y → Trimmed y
  tools : ∀ y, s.tools = some y → (Tools.XmlKept v y → Tools.XmlOk v y) ∧ Tools.at v y = y
  authors : ∀ y, s.authors = some y → ∀ z ∈ y, OrganizationalContact.XmlOk z
  component : ∀ y, s.component = some y → (Component.XmlKept v y → Component.XmlOk v y) ∧ Component.at v y = y
  manufacture : ∀ y, s.manufacture = some y → (OrganizationalEntity.XmlKept y → OrganizationalEntity.XmlOk y)
  supplier : ∀ y, s.supplier = some y → (OrganizationalEntity.XmlKept y → OrganizationalEntity.XmlOk y)
  licenses : ∀ y, s.licenses = some y → (Licenses.XmlKept v y → Licenses.XmlOk v y) ∧ Licenses.at v y = y
  properties : ∀ y, s.properties = some y → ∀ z ∈ y, Property.XmlOk z
  lifecycles : ∀ y, s.lifecycles = some y → ∀ z ∈ y, Lifecycle.XmlOk z
  lifecycles_none : v ≠ .v1_5 → s.lifecycles = none

theorem Metadata.gets (hu : v.ord ≤ w.ord) : Gets (Metadata.readXml v) fun x => (Metadata.XmlKept w x → Metadata.XmlOk w x) ∧ Metadata.at w x = x := by
  unfold Metadata.readXml
  refine struct_gets (Metadata.Vars.Got w) { timestamp := noneAll, tools := noneAll, authors := noneAll, component := noneAll, manufacture := noneAll, supplier := noneAll, licenses := noneAll, properties := noneAll, lifecycles := noneAll, lifecycles_none := fun _ => rfl } ?_ ?_
  · unfold Metadata.arms
    exact (armsGetAppend (armsGetCons (arm_gets readSimple_gets fun y s h hy => { h with timestamp := fun z e => by cases e; exact hy }) <|
      armsGetCons (arm_gets (Tools.gets hu) fun y s h hy => { h with tools := fun z e => by cases e; exact hy }) <|
      armsGetCons (arm_gets (list_gets OrganizationalContact.gets) fun y s h hy => { h with authors := fun z e => by cases e; exact hy }) <|
      armsGetCons (arm_gets (Component.gets hu) fun y s h hy => { h with component := fun z e => by cases e; exact hy }) <|
      armsGetCons (arm_gets OrganizationalEntity.gets fun y s h hy => { h with manufacture := fun z e => by cases e; exact hy }) <|
      armsGetCons (arm_gets OrganizationalEntity.gets fun y s h hy => { h with supplier := fun z e => by cases e; exact hy }) <|
      armsGetCons (arm_gets (Licenses.gets hu) fun y s h hy => { h with licenses := fun z e => by cases e; exact hy }) <|
      armsGetCons (arm_gets (list_gets Property.gets) fun y s h hy => { h with properties := fun z e => by cases e; exact hy }) <|
      armsGetNil)
      (armsGet15 hu fun hv => armsGetCons (arm_gets (list_gets Lifecycle.gets) fun y s h hy => { h with lifecycles := fun z e => by cases e; exact hy, lifecycles_none := fun e => absurd hv e }) <|
      armsGetNil))
  · intro el attrs p s x hp hs h
    cases h
    have a_component : s.component.map (Component.at w) = s.component := optMap_id fun y hy => (hs.component y hy).2
    have a_licenses : s.licenses.map (Licenses.at w) = s.licenses := optMap_id fun y hy => (hs.licenses y hy).2
    have n_lifecycles : since15 w s.lifecycles none = s.lifecycles := since15_none hs.lifecycles_none
    have a_tools : s.tools.map (Tools.at w) = s.tools := optMap_id fun y hy => (hs.tools y hy).2
    exact ⟨fun hk => { timestamp := fun y hy => hs.timestamp y hy,
                       tools := fun y hy => (hs.tools y hy).1 (hk.tools y hy),
                       authors := fun y hy z hz => ⟨(hs.authors y hy z hz), (hk.authors y hy z hz)⟩,
                       component := fun y hy => (hs.component y hy).1 (hk.component y hy),
                       manufacture := fun y hy => (hs.manufacture y hy) (hk.manufacture y hy),
                       supplier := fun y hy => (hs.supplier y hy) (hk.supplier y hy),
                       licenses := fun y hy => (hs.licenses y hy).1 (hk.licenses y hy),
                       properties := fun y hy z hz => (hs.properties y hy z hz),
                       lifecycles := fun hv y hy z hz => (hs.lifecycles y hy z hz) }, by simp only [Metadata.at, a_component, a_licenses, n_lifecycles, a_tools]⟩

/-- What is known of the local variables of the reader of `Vulnerability`. -/
structure Vulnerability.Vars.Got (v : SpecVersion) (s : Vulnerability.Vars) : Prop where
  id : ∀ y, s.id = some y → Trimmed y
  vulnerabilitySource : ∀ y, s.vulnerabilitySource = some y → VulnerabilitySource.XmlOk y
  vulnerabilityReferences : ∀ y, s.vulnerabilityReferences = some y → ∀ z ∈ y, VulnerabilityReference.XmlOk z
  vulnerabilityRatings : ∀ y, s.vulnerabilityRatings = some y → ∀ z ∈ y, (VulnerabilityRating.XmlKept z → VulnerabilityRating.XmlOk z)
  cwes : ∀ y, s.cwes = some y → ∀ z ∈ y, z < 2 ^ 32
  description : ∀ y, s.description = some y → Trimmed y
  detail : ∀ y, s.detail = some y → Trimmed y ∧ y ≠ ""
  recommendation : ∀ y, s.recommendation = some y → Trimmed y
  advisories : ∀ y, s.advisories = some y → ∀ z ∈ y, Advisory.XmlOk z
  created : ∀ y, s.created = some y → Trimmed y
  published : ∀ y, s.published = some y → Trimmed y
  updated : ∀ y, s.updated = some y → Trimmed y
  vulnerabilityCredits : ∀ y, s.vulnerabilityCredits = some y → (VulnerabilityCredits.XmlKept y → VulnerabilityCredits.XmlOk y)
  tools : ∀ y, s.tools = some y → (Tools.XmlKept v y → Tools.XmlOk v y) ∧ Tools.at v y = y
  vulnerabilityAnalysis : ∀ y, s.vulnerabilityAnalysis = some y → VulnerabilityAnalysis.XmlOk v y ∧ VulnerabilityAnalysis.at v y = y
  vulnerabilityTargets : ∀ y, s.vulnerabilityTargets = some y → ∀ z ∈ y, VulnerabilityTarget.XmlOk z
  properties : ∀ y, s.properties = some y → ∀ z ∈ y, Property.XmlOk z
  proofOfConcept_none : v ≠ .v1_5 → s.proofOfConcept = none
  rejected : ∀ y, s.rejected = some y → Trimmed y
  rejected_none : v ≠ .v1_5 → s.rejected = none
  workaround : ∀ y, s.workaround = some y → Trimmed y
  workaround_none : v ≠ .v1_5 → s.workaround = none

theorem Vulnerability.gets (hu : v.ord ≤ w.ord) : Gets (Vulnerability.readXml v) fun x => (Vulnerability.XmlKept w x → Vulnerability.XmlOk w x) ∧ Vulnerability.at w x = x := by
  unfold Vulnerability.readXml
  refine struct_gets (Vulnerability.Vars.Got w) { id := noneAll, vulnerabilitySource := noneAll, vulnerabilityReferences := noneAll, vulnerabilityRatings := noneAll, cwes := noneAll, description := noneAll, detail := noneAll, recommendation := noneAll, advisories := noneAll, created := noneAll, published := noneAll, updated := noneAll, vulnerabilityCredits := noneAll, tools := noneAll, vulnerabilityAnalysis := noneAll, vulnerabilityTargets := noneAll, properties := noneAll, proofOfConcept_none := fun _ => rfl, rejected := noneAll, rejected_none := fun _ => rfl, workaround := noneAll, workaround_none := fun _ => rfl } ?_ ?_
  · unfold Vulnerability.arms
    exact (armsGetAppend (armsGetCons (arm_gets readSimple_gets fun y s h hy => { h with id := fun z e => by cases e; exact hy }) <|
      armsGetCons (arm_gets VulnerabilitySource.gets fun y s h hy => { h with vulnerabilitySource := fun z e => by cases e; exact hy }) <|
      armsGetCons (arm_gets (list_gets VulnerabilityReference.gets) fun y s h hy => { h with vulnerabilityReferences := fun z e => by cases e; exact hy }) <|
      armsGetCons (arm_gets (list_gets VulnerabilityRating.gets) fun y s h hy => { h with vulnerabilityRatings := fun z e => by cases e; exact hy }) <|
      armsGetCons (arm_gets (list_gets readU32_gets) fun y s h hy => { h with cwes := fun z e => by cases e; exact hy }) <|
      armsGetCons (arm_gets readSimple_gets fun y s h hy => { h with description := fun z e => by cases e; exact hy }) <|
      armsGetCons (arm_gets readOptional_gets fun y s h hy => { h with detail := fun z e => hy z e }) <|
      armsGetCons (arm_gets readSimple_gets fun y s h hy => { h with recommendation := fun z e => by cases e; exact hy }) <|
      armsGetCons (arm_gets (list_gets Advisory.gets) fun y s h hy => { h with advisories := fun z e => by cases e; exact hy }) <|
      armsGetCons (arm_gets readSimple_gets fun y s h hy => { h with created := fun z e => by cases e; exact hy }) <|
      armsGetCons (arm_gets readSimple_gets fun y s h hy => { h with published := fun z e => by cases e; exact hy }) <|
      armsGetCons (arm_gets readSimple_gets fun y s h hy => { h with updated := fun z e => by cases e; exact hy }) <|
      armsGetCons (arm_gets VulnerabilityCredits.gets fun y s h hy => { h with vulnerabilityCredits := fun z e => by cases e; exact hy }) <|
      armsGetCons (arm_gets (Tools.gets hu) fun y s h hy => { h with tools := fun z e => by cases e; exact hy }) <|
      armsGetCons (arm_gets (VulnerabilityAnalysis.gets hu) fun y s h hy => { h with vulnerabilityAnalysis := fun z e => by cases e; exact hy }) <|
      armsGetCons (arm_gets (list_gets VulnerabilityTarget.gets) fun y s h hy => { h with vulnerabilityTargets := fun z e => by cases e; exact hy }) <|
      armsGetCons (arm_gets (list_gets Property.gets) fun y s h hy => { h with properties := fun z e => by cases e; exact hy }) <|
      armsGetNil)
      (armsGet15 hu fun hv => armsGetCons (arm_gets VulnerabilityProofOfConcept.gets fun y s h _ => { h with proofOfConcept_none := fun e => absurd hv e }) <|
      armsGetCons (arm_gets readSimple_gets fun y s h hy => { h with rejected := fun z e => by cases e; exact hy, rejected_none := fun e => absurd hv e }) <|
      armsGetCons (arm_gets readSimple_gets fun y s h hy => { h with workaround := fun z e => by cases e; exact hy, workaround_none := fun e => absurd hv e }) <|
      armsGetNil))
  · intro el attrs p s x hp hs h
    cases h
    have n_proofOfConcept : since15 w s.proofOfConcept none = s.proofOfConcept := since15_none hs.proofOfConcept_none
    have n_rejected : since15 w s.rejected none = s.rejected := since15_none hs.rejected_none
    have a_tools : s.tools.map (Tools.at w) = s.tools := optMap_id fun y hy => (hs.tools y hy).2
    have a_vulnerabilityAnalysis : s.vulnerabilityAnalysis.map (VulnerabilityAnalysis.at w) = s.vulnerabilityAnalysis := optMap_id fun y hy => (hs.vulnerabilityAnalysis y hy).2
    have n_workaround : since15 w s.workaround none = s.workaround := since15_none hs.workaround_none
    exact ⟨fun hk => { proofOfConcept := fun hv => (hk.proofOfConcept hv),
                       id := fun y hy => hs.id y hy,
                       vulnerabilitySource := fun y hy => (hs.vulnerabilitySource y hy),
                       vulnerabilityReferences := fun y hy z hz => (hs.vulnerabilityReferences y hy z hz),
                       vulnerabilityRatings := fun y hy z hz => (hs.vulnerabilityRatings y hy z hz) (hk.vulnerabilityRatings y hy z hz),
                       cwes := fun y hy z hz => hs.cwes y hy z hz,
                       description := fun y hy => hs.description y hy,
                       detail := fun y hy => ⟨(hs.detail y hy).1, (hs.detail y hy).2⟩,
                       recommendation := fun y hy => hs.recommendation y hy,
                       advisories := fun y hy z hz => (hs.advisories y hy z hz),
                       created := fun y hy => hs.created y hy,
                       published := fun y hy => hs.published y hy,
                       updated := fun y hy => hs.updated y hy,
                       rejected := fun hv y hy => hs.rejected y hy,
                       vulnerabilityCredits := fun y hy => (hs.vulnerabilityCredits y hy) (hk.vulnerabilityCredits y hy),
                       tools := fun y hy => (hs.tools y hy).1 (hk.tools y hy),
                       vulnerabilityAnalysis := fun y hy => (hs.vulnerabilityAnalysis y hy).1,
                       vulnerabilityTargets := fun y hy z hz => (hs.vulnerabilityTargets y hy z hz),
                       properties := fun y hy z hz => (hs.properties y hy z hz),
                       workaround := fun hv y hy => hs.workaround y hy }, by simp only [Vulnerability.at, n_proofOfConcept, n_rejected, a_tools, a_vulnerabilityAnalysis, n_workaround]⟩

/-- What is known of the local variables of the reader of `Formula`. -/
structure Formula.Vars.Got (v : SpecVersion) (s : Formula.Vars) : Prop where
  components : ∀ y, s.components = some y → ∀ z ∈ y, (Component.XmlKept v z → Component.XmlOk v z) ∧ Component.at v z = z
  services : ∀ y, s.services = some y → ∀ z ∈ y, (Service.XmlKept v z → Service.XmlOk v z) ∧ Service.at v z = z
  workflows : ∀ y, s.workflows = some y → ∀ z ∈ y, (Workflow.XmlKept z → Workflow.XmlOk z)
  properties : ∀ y, s.properties = some y → ∀ z ∈ y, Property.XmlOk z

theorem Formula.gets (hu : v.ord ≤ w.ord) : Gets (Formula.readXml v) fun x => (Formula.XmlKept w x → Formula.XmlOk w x) ∧ Formula.at w x = x := by
  unfold Formula.readXml
  refine struct_gets (Formula.Vars.Got w) { components := noneAll, services := noneAll, workflows := noneAll, properties := noneAll } ?_ ?_
  · unfold Formula.arms
    exact armsGetCons (arm_gets (list_gets (Component.gets hu)) fun y s h hy => { h with components := fun z e => by cases e; exact hy }) <|
      armsGetCons (arm_gets (list_gets (Service.gets hu)) fun y s h hy => { h with services := fun z e => by cases e; exact hy }) <|
      armsGetCons (arm_gets (list_gets Workflow.gets) fun y s h hy => { h with workflows := fun z e => by cases e; exact hy }) <|
      armsGetCons (arm_gets (list_gets Property.gets) fun y s h hy => { h with properties := fun z e => by cases e; exact hy }) <|
      armsGetNil
  · intro el attrs p s x hp hs h
    cases h
    have a_components : s.components.map (List.map (Component.at w)) = s.components := optMap_id fun y hy => listMap_id fun z hz => (hs.components y hy z hz).2
    have a_services : s.services.map (List.map (Service.at w)) = s.services := optMap_id fun y hy => listMap_id fun z hz => (hs.services y hy z hz).2
    exact ⟨fun hk => { components := fun y hy z hz => (hs.components y hy z hz).1 (hk.components y hy z hz),
                       services := fun y hy z hz => (hs.services y hy z hz).1 (hk.services y hy z hz),
                       workflows := fun y hy z hz => (hs.workflows y hy z hz) (hk.workflows y hy z hz),
                       properties := fun y hy z hz => (hs.properties y hy z hz) }, by simp only [Formula.at, a_components, a_services]⟩

theorem Annotator.gets (hu : v.ord ≤ w.ord) : Gets (Annotator.readXml v) fun _ => True := by
  unfold Annotator.readXml
  refine struct_gets (fun _ => True) trivial ?_ fun _ _ _ _ _ _ _ _ => trivial
  unfold Annotator.arms
  exact armsGetCons (arm_gets OrganizationalEntity.gets fun _ _ _ _ => trivial) <|
      armsGetCons (arm_gets OrganizationalContact.gets fun _ _ _ _ => trivial) <|
      armsGetCons (arm_gets (Component.gets hu) fun _ _ _ _ => trivial) <|
      armsGetCons (arm_gets (Service.gets hu) fun _ _ _ _ => trivial) <|
      armsGetNil

theorem Annotation.gets (hu : v.ord ≤ w.ord) : Gets (Annotation.readXml v) fun _ => True := by
  unfold Annotation.readXml
  refine struct_gets (fun _ => True) trivial ?_ fun _ _ _ _ _ _ _ _ => trivial
  unfold Annotation.arms
  exact armsGetCons (arm_gets (list_gets readRef_gets) fun _ _ _ _ => trivial) <|
      armsGetCons (arm_gets (Annotator.gets hu) fun _ _ _ _ => trivial) <|
      armsGetCons (arm_gets readSimple_gets fun _ _ _ _ => trivial) <|
      armsGetCons (arm_gets readSimple_gets fun _ _ _ _ => trivial) <|
      armsGetCons (arm_gets Signature.gets fun _ _ _ _ => trivial) <|
      armsGetNil

end Cdx
