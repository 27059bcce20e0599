import Verif.Lemmas.Clean

set_option linter.unusedSectionVars false
set_option linter.unusedSimpArgs false
set_option linter.unusedVariables false

/-!
# What the readers of the small parts return
-/

namespace Cdx

variable [F32Format] [ReadLimit] {v w : SpecVersion}

/-! ## Names -/

theorem enum_gets {α : Type} {display : α → String} {new : String → α}
    (hst : ∀ s, Stable display new (new s)) (hd : ∀ s, display (new s) = s) :
    Gets (readSimple.map new) fun y => Stable display new y ∧ Trimmed (display y) :=
  mapElem_gets readSimple_gets fun s hs => ⟨hst s, by rw [hd s]; exact hs⟩

theorem AggregateType.gets :
    Gets (readSimple.map AggregateType.new) fun y => Trimmed (AggregateType.display y) :=
  mapElem_gets readSimple_gets fun s hs => by
    by_cases h : s = "incomplete_first_party_propprietary_only"
    · subst h; rfl
    · rw [AggregateType.display_new h]; exact hs

theorem IdentityField.gets : Gets (readSimple.map IdentityField.new) fun _ => True :=
  mapElem_gets readSimple_gets fun s hs => trivial

theorem Algorithm.spec_stable (s : String) :
    Stable Algorithm.specName Algorithm.ofSpecName (Algorithm.ofSpecName s) := by
  have e : Algorithm.new (Algorithm.new (Algorithm.new s).display).display =
    Algorithm.new (Algorithm.new s).display := Algorithm.new_display _
  unfold Stable Algorithm.specName Algorithm.ofSpecName
  rw [e, e, e]

theorem Algorithm.spec_trimmed (s : String) : Trimmed (Algorithm.specName (Algorithm.ofSpecName s)) := by
  unfold Algorithm.specName Algorithm.ofSpecName
  have e : Algorithm.new (Algorithm.new (Algorithm.new s).display).display =
    Algorithm.new (Algorithm.new s).display := Algorithm.new_display _
  rw [e]
  generalize Algorithm.new s = a
  cases a <;> (unfold Trimmed; first | decide +kernel | (simp only [Algorithm.display]; decide +kernel))

theorem Algorithm.gets : Gets (readSimple.map Algorithm.ofSpecName) fun y =>
    Stable Algorithm.specName Algorithm.ofSpecName y ∧ Trimmed (Algorithm.specName y) :=
  mapElem_gets readSimple_gets fun s _ => ⟨Algorithm.spec_stable s, Algorithm.spec_trimmed s⟩

theorem option_getD {α : Type} {P : α → Prop} {o : Option α} {d : α} (h : ∀ y, o = some y → P y)
    (hd : P d) : P (o.getD d) := by
  cases o with
  | none => exact hd
  | some y => exact h y rfl

/-! ## Elements -/

theorem AttachedText.gets : Gets AttachedText.readXml fun x => AttachedText.XmlOk x := by
  unfold AttachedText.readXml
  refine with_gets readInner_gets fun el attrs p x _ hx => ?_
  exact { content := hx, encoding := fun y hy => by
            obtain ⟨s, _, rfl⟩ := Option.map_eq_some_iff.mp hy
            exact Encoding.new_stable s }

theorem Property.gets : Gets Property.readXml fun x => Property.XmlOk x := by
  unfold Property.readXml
  exact with_gets readSimple_gets fun el attrs p x _ hx => ⟨hx⟩

theorem Hash.gets : Gets Hash.readXml fun x => Hash.XmlOk x := by
  unfold Hash.readXml
  exact with_gets readSimple_gets fun el attrs p x _ hx => ⟨HashAlgorithm.new_stable p, hx⟩

/-- What is known of the local variables of the reader of `OrganizationalContact`. -/
structure OrganizationalContact.Vars.Got (s : OrganizationalContact.Vars) : Prop where
  name : ∀ y, s.name = some y → Trimmed y
  email : ∀ y, s.email = some y → Trimmed y
  phone : ∀ y, s.phone = some y → Trimmed y

theorem OrganizationalContact.gets : Gets (OrganizationalContact.readXml) fun x => OrganizationalContact.XmlOk x := by
  unfold OrganizationalContact.readXml
  refine struct_gets (OrganizationalContact.Vars.Got) { name := noneAll, email := noneAll, phone := noneAll } ?_ ?_
  · unfold OrganizationalContact.arms
    exact armsGetCons (arm_gets readSimple_gets fun y s h hy => { h with name := fun z e => by cases e; exact hy }) <|
      armsGetCons (arm_gets readSimple_gets fun y s h hy => { h with email := fun z e => by cases e; exact hy }) <|
      armsGetCons (arm_gets readSimple_gets fun y s h hy => { h with phone := fun z e => by cases e; exact hy }) <|
      armsGetNil
  · intro el attrs p s x hp hs h
    cases h
    exact { name := fun y hy => hs.name y hy,
            email := fun y hy => hs.email y hy,
            phone := fun y hy => hs.phone y hy }

/-- What is known of the local variables of the reader of `OrganizationalEntity`. -/
structure OrganizationalEntity.Vars.Got (s : OrganizationalEntity.Vars) : Prop where
  name : ∀ y, s.name = some y → Trimmed y
  url : ∀ y, s.url = some y → ∀ z ∈ y, Trimmed z
  url_ne : s.url ≠ some []
  contact : ∀ y, s.contact = some y → ∀ z ∈ y, OrganizationalContact.XmlOk z
  contact_ne : s.contact ≠ some []

theorem OrganizationalEntity.gets : Gets (OrganizationalEntity.readXml) fun x => (OrganizationalEntity.XmlKept x → OrganizationalEntity.XmlOk x) := by
  unfold OrganizationalEntity.readXml
  refine struct_gets (OrganizationalEntity.Vars.Got) { name := noneAll, url := noneAll, url_ne := nofun, contact := noneAll, contact_ne := nofun } ?_ ?_
  · unfold OrganizationalEntity.arms
    exact armsGetCons (arm_gets readSimple_gets fun y s h hy => { h with name := fun z e => by cases e; exact hy }) <|
      armsGetCons (arm_gets readSimple_gets fun y s h hy => { h with url := fun z e => by cases e; exact getD_append h.url hy, url_ne := fun e => by simp at e }) <|
      armsGetCons (arm_gets OrganizationalContact.gets fun y s h hy => { h with contact := fun z e => by cases e; exact getD_append h.contact hy, contact_ne := fun e => by simp at e }) <|
      armsGetNil
  · intro el attrs p s x hp hs h
    cases h
    exact fun hk => { name := fun y hy => hs.name y hy,
                      url := fun y hy z hz => hs.url y hy z hz,
                      url_ne := hs.url_ne,
                      contact := fun y hy z hz => ⟨(hs.contact y hy z hz), (hk.contact y hy z hz)⟩,
                      contact_ne := hs.contact_ne }

/-- What is known of the local variables of the reader of `ExternalReference`. -/
structure ExternalReference.Vars.Got (s : ExternalReference.Vars) : Prop where
  url : ∀ y, s.url = some y → Stable RefUri.display RefUri.ofUrl y ∧ Trimmed (RefUri.display y)
  comment : ∀ y, s.comment = some y → Trimmed y
  hashes : ∀ y, s.hashes = some y → ∀ z ∈ y, Hash.XmlOk z

theorem ExternalReference.gets : Gets (ExternalReference.readXml) fun x => (ExternalReference.XmlKept x → ExternalReference.XmlOk x) := by
  unfold ExternalReference.readXml
  refine struct_gets (ExternalReference.Vars.Got) { url := noneAll, comment := noneAll, hashes := noneAll } ?_ ?_
  · unfold ExternalReference.arms
    exact armsGetCons (arm_gets (enum_gets RefUri.ofUrl_stable RefUri.display_ofUrl) fun y s h hy => { h with url := fun z e => by cases e; exact hy }) <|
      armsGetCons (arm_gets readSimple_gets fun y s h hy => { h with comment := fun z e => by cases e; exact hy }) <|
      armsGetCons (arm_gets (list_gets Hash.gets) fun y s h hy => { h with hashes := fun z e => by cases e; exact hy }) <|
      armsGetNil
  · intro el attrs p s x hp hs h
    obtain ⟨url', e_url, h⟩ := xbind h
    have e_url := required_eq e_url
    cases h
    exact fun hk => { externalReferenceType := hk.externalReferenceType,
                      url := ⟨(hs.url _ e_url).1, (hs.url _ e_url).2⟩,
                      comment := fun y hy => hs.comment y hy,
                      hashes := fun y hy z hz => (hs.hashes y hy z hz) }

/-- What is known of the local variables of the reader of `VulnerabilitySource`. -/
structure VulnerabilitySource.Vars.Got (s : VulnerabilitySource.Vars) : Prop where
  name : ∀ y, s.name = some y → Trimmed y
  url : ∀ y, s.url = some y → Trimmed y

theorem VulnerabilitySource.gets : Gets (VulnerabilitySource.readXml) fun x => VulnerabilitySource.XmlOk x := by
  unfold VulnerabilitySource.readXml
  refine struct_gets (VulnerabilitySource.Vars.Got) { name := noneAll, url := noneAll } ?_ ?_
  · unfold VulnerabilitySource.arms
    exact armsGetCons (arm_gets readSimple_gets fun y s h hy => { h with name := fun z e => by cases e; exact hy }) <|
      armsGetCons (arm_gets readSimple_gets fun y s h hy => { h with url := fun z e => by cases e; exact hy }) <|
      armsGetNil
  · intro el attrs p s x hp hs h
    cases h
    exact { name := fun y hy => hs.name y hy,
            url := fun y hy => hs.url y hy }

/-- What is known of the local variables of the reader of `VulnerabilityReference`. -/
structure VulnerabilityReference.Vars.Got (s : VulnerabilityReference.Vars) : Prop where
  id : ∀ y, s.id = some y → Trimmed y
  vulnerabilitySource : ∀ y, s.vulnerabilitySource = some y → VulnerabilitySource.XmlOk y

theorem VulnerabilityReference.gets : Gets (VulnerabilityReference.readXml) fun x => VulnerabilityReference.XmlOk x := by
  unfold VulnerabilityReference.readXml
  refine struct_gets (VulnerabilityReference.Vars.Got) { id := noneAll, vulnerabilitySource := noneAll } ?_ ?_
  · unfold VulnerabilityReference.arms
    exact armsGetCons (arm_gets readSimple_gets fun y s h hy => { h with id := fun z e => by cases e; exact hy }) <|
      armsGetCons (arm_gets VulnerabilitySource.gets fun y s h hy => { h with vulnerabilitySource := fun z e => by cases e; exact hy }) <|
      armsGetNil
  · intro el attrs p s x hp hs h
    obtain ⟨id', e_id, h⟩ := xbind h
    have e_id := required_eq e_id
    obtain ⟨vulnerabilitySource', e_vulnerabilitySource, h⟩ := xbind h
    have e_vulnerabilitySource := required_eq e_vulnerabilitySource
    cases h
    exact { id := hs.id _ e_id,
            vulnerabilitySource := (hs.vulnerabilitySource _ e_vulnerabilitySource) }

/-- What is known of the local variables of the reader of `Advisory`. -/
structure Advisory.Vars.Got (s : Advisory.Vars) : Prop where
  title : ∀ y, s.title = some y → Trimmed y
  url : ∀ y, s.url = some y → Trimmed y

theorem Advisory.gets : Gets (Advisory.readXml) fun x => Advisory.XmlOk x := by
  unfold Advisory.readXml
  refine struct_gets (Advisory.Vars.Got) { title := noneAll, url := noneAll } ?_ ?_
  · unfold Advisory.arms
    exact armsGetCons (arm_gets readSimple_gets fun y s h hy => { h with title := fun z e => by cases e; exact hy }) <|
      armsGetCons (arm_gets readSimple_gets fun y s h hy => { h with url := fun z e => by cases e; exact hy }) <|
      armsGetNil
  · intro el attrs p s x hp hs h
    obtain ⟨url', e_url, h⟩ := xbind h
    have e_url := required_eq e_url
    cases h
    exact { title := fun y hy => hs.title y hy,
            url := hs.url _ e_url }

/-- What is known of the local variables of the reader of `VulnerabilityCredits`. -/
structure VulnerabilityCredits.Vars.Got (s : VulnerabilityCredits.Vars) : Prop where
  organizations : ∀ y, s.organizations = some y → ∀ z ∈ y, (OrganizationalEntity.XmlKept z → OrganizationalEntity.XmlOk z)
  individuals : ∀ y, s.individuals = some y → ∀ z ∈ y, OrganizationalContact.XmlOk z

theorem VulnerabilityCredits.gets : Gets (VulnerabilityCredits.readXml) fun x => (VulnerabilityCredits.XmlKept x → VulnerabilityCredits.XmlOk x) := by
  unfold VulnerabilityCredits.readXml
  refine struct_gets (VulnerabilityCredits.Vars.Got) { organizations := noneAll, individuals := noneAll } ?_ ?_
  · unfold VulnerabilityCredits.arms
    exact armsGetCons (arm_gets (list_gets OrganizationalEntity.gets) fun y s h hy => { h with organizations := fun z e => by cases e; exact hy }) <|
      armsGetCons (arm_gets (list_gets OrganizationalContact.gets) fun y s h hy => { h with individuals := fun z e => by cases e; exact hy }) <|
      armsGetNil
  · intro el attrs p s x hp hs h
    cases h
    exact fun hk => { organizations := fun y hy z hz => ⟨(hs.organizations y hy z hz) (hk.organizations y hy z hz).1, (hk.organizations y hy z hz).2⟩,
                      individuals := fun y hy z hz => ⟨(hs.individuals y hy z hz), (hk.individuals y hy z hz)⟩ }

theorem LicenseContact.gets : Gets (LicenseContact.readXml) fun _ => True := by
  unfold LicenseContact.readXml
  refine struct_gets (fun _ => True) trivial ?_ fun _ _ _ _ _ _ _ _ => trivial
  unfold LicenseContact.arms
  exact armsGetCons (arm_gets OrganizationalEntity.gets fun _ _ _ _ => trivial) <|
      armsGetCons (arm_gets OrganizationalContact.gets fun _ _ _ _ => trivial) <|
      armsGetNil

theorem Licensing.gets : Gets (Licensing.readXml) fun _ => True := by
  unfold Licensing.readXml
  refine struct_gets (fun _ => True) trivial ?_ fun _ _ _ _ _ _ _ _ => trivial
  unfold Licensing.arms
  exact armsGetCons (arm_gets (list_gets readSimple_gets) fun _ _ _ _ => trivial) <|
      armsGetCons (arm_gets LicenseContact.gets fun _ _ _ _ => trivial) <|
      armsGetCons (arm_gets LicenseContact.gets fun _ _ _ _ => trivial) <|
      armsGetCons (arm_gets LicenseContact.gets fun _ _ _ _ => trivial) <|
      armsGetCons (arm_gets readSimple_gets fun _ _ _ _ => trivial) <|
      armsGetCons (arm_gets (list_gets (enum_gets LicenseType.new_stable LicenseType.display_new)) fun _ _ _ _ => trivial) <|
      armsGetCons (arm_gets readSimple_gets fun _ _ _ _ => trivial) <|
      armsGetCons (arm_gets readSimple_gets fun _ _ _ _ => trivial) <|
      armsGetNil

/-- What is known of the local variables of the reader of `License`. -/
structure License.Vars.Got (v : SpecVersion) (s : License.Vars) : Prop where
  licenseIdentifier : ∀ y, s.licenseIdentifier = some y → LicenseIdentifier.XmlOk y
  text : ∀ y, s.text = some y → AttachedText.XmlOk y
  url : ∀ y, s.url = some y → Trimmed y
  licensing_none : v ≠ .v1_5 → s.licensing = none
  properties : ∀ y, s.properties = some y → ∀ z ∈ y, Property.XmlOk z
  properties_none : v ≠ .v1_5 → s.properties = none

theorem License.gets (hu : v.ord ≤ w.ord) : Gets (License.readXml v) fun x => (License.XmlKept w x → License.XmlOk w x) ∧ License.at w x = x := by
  unfold License.readXml
  refine struct_gets (License.Vars.Got w) { licenseIdentifier := noneAll, text := noneAll, url := noneAll, licensing_none := fun _ => rfl, properties := noneAll, properties_none := fun _ => rfl } ?_ ?_
  · unfold License.arms
    exact (armsGetAppend (armsGetCons (armOnce_gets readInner_gets fun y s h hy => { h with licenseIdentifier := fun z e => by cases e; first | exact hy | exact fun _ => hy }) <|
      armsGetCons (armOnce_gets readInner_gets fun y s h hy => { h with licenseIdentifier := fun z e => by cases e; first | exact hy | exact fun _ => hy }) <|
      armsGetCons (arm_gets AttachedText.gets fun y s h hy => { h with text := fun z e => by cases e; exact hy }) <|
      armsGetCons (arm_gets readSimple_gets fun y s h hy => { h with url := fun z e => by cases e; exact hy }) <|
      armsGetNil)
      (armsGet15 hu fun hv => armsGetCons (arm_gets Licensing.gets fun y s h _ => { h with licensing_none := fun e => absurd hv e }) <|
      armsGetCons (arm_gets (list_gets Property.gets) fun y s h hy => { h with properties := fun z e => by cases e; exact hy, properties_none := fun e => absurd hv e }) <|
      armsGetNil))
  · intro el attrs p s x hp hs h
    obtain ⟨licenseIdentifier', e_licenseIdentifier, h⟩ := xbind h
    have e_licenseIdentifier := required_eq e_licenseIdentifier
    cases h
    have n_bomRef : since15 w p none = p := by cases hp; cases w <;> cases v <;> first | rfl | exact absurd hu (by decide)
    have n_licensing : since15 w s.licensing none = s.licensing := since15_none hs.licensing_none
    have n_properties : since15 w s.properties none = s.properties := since15_none hs.properties_none
    exact ⟨fun hk => { licensing := fun hv => (hk.licensing hv),
                       licenseIdentifier := (hs.licenseIdentifier _ e_licenseIdentifier),
                       text := fun y hy => (hs.text y hy),
                       url := fun y hy => hs.url y hy,
                       properties := fun hv y hy z hz => (hs.properties y hy z hz) }, by simp only [License.at, n_bomRef, n_licensing, n_properties]⟩

theorem SpdxExpression.gets : Gets SpdxExpression.readXml fun x => SpdxExpression.XmlOk x := by
  unfold SpdxExpression.readXml
  exact with_gets readSimple_gets fun el attrs p x _ hx => ⟨hx⟩

theorem Licenses.gets (hu : v.ord ≤ w.ord) : Gets (Licenses.readXml v) fun x => (Licenses.XmlKept w x → Licenses.XmlOk w x) ∧
    Licenses.at w x = x := by
  unfold Licenses.readXml
  refine struct_gets (fun l : Licenses => ∀ z ∈ l, (LicenseChoice.XmlKept w z → LicenseChoice.XmlOk w z) ∧
      LicenseChoice.at w z = z) (fun _ hz => by cases hz) ?_ ?_
  · unfold Licenses.arms
    refine armsGetCons (arm_gets (License.gets hu) ?_) (armsGetCons (arm_gets SpdxExpression.gets ?_) armsGetNil)
    · intro y s h hy z hz
      rcases List.mem_append.mp hz with g | g
      · exact h z g
      · rw [List.mem_singleton.mp g]
        exact ⟨hy.1, congrArg LicenseChoice.license hy.2⟩
    · intro y s h hy z hz
      rcases List.mem_append.mp hz with g | g
      · exact h z g
      · rw [List.mem_singleton.mp g]
        exact ⟨fun _ => hy, rfl⟩
  · intro el attrs p s x hp hs h
    cases h
    exact ⟨fun hk z hz => (hs z hz).1 (hk z hz), listMap_id fun z hz => (hs z hz).2⟩

/-- What is known of the local variables of the reader of `Signer`. -/
structure Signer.Vars.Got (s : Signer.Vars) : Prop where
  algorithm : ∀ y, s.algorithm = some y → Stable Algorithm.specName Algorithm.ofSpecName y ∧ Trimmed (Algorithm.specName y)
  value : ∀ y, s.value = some y → Trimmed y

theorem Signer.gets : Gets (Signer.readXml) fun x => Signer.XmlOk x := by
  unfold Signer.readXml
  refine struct_gets (Signer.Vars.Got) { algorithm := noneAll, value := noneAll } ?_ ?_
  · unfold Signer.arms
    exact armsGetCons (arm_gets Algorithm.gets fun y s h hy => { h with algorithm := fun z e => by cases e; exact hy }) <|
      armsGetCons (arm_gets readSimple_gets fun y s h hy => { h with value := fun z e => by cases e; exact hy }) <|
      armsGetNil
  · intro el attrs p s x hp hs h
    obtain ⟨algorithm', e_algorithm, h⟩ := xbind h
    have e_algorithm := required_eq e_algorithm
    obtain ⟨value', e_value, h⟩ := xbind h
    have e_value := required_eq e_value
    cases h
    exact { algorithm := ⟨(hs.algorithm _ e_algorithm).1, (hs.algorithm _ e_algorithm).2⟩,
            value := hs.value _ e_value }

/-- What is known of the local variables of the reader of `Signature`. -/
structure Signature.Vars.Got (s : Signature.Vars) : Prop where
  signature : ∀ y, s.signature = some y → Signature.XmlOk y
  value : ∀ y, s.value = some y → Trimmed y

theorem Signature.armsGet : ArmsGet Signature.Vars.Got Signature.arms := by
  unfold Signature.arms
  exact armsGetCons (arm_gets (list_gets Signer.gets) fun y s h hy =>
      { h with signature := fun z e => by cases e; exact hy }) <|
    armsGetCons (arm_gets (list_gets Signer.gets) fun y s h hy =>
      { h with signature := fun z e => by cases e; exact hy }) <|
    armsGetCons (arm_gets readSimple_gets fun y s h hy => { h with }) <|
    armsGetCons (arm_gets readSimple_gets fun y s h hy =>
      { h with value := fun z e => by cases e; exact hy }) <|
    armsGetNil

theorem Signature.other_gets {el : XName} {st : Signature.Vars} {l : List XEvent} {b : Bool}
    {st' : Signature.Vars} {l' : List XEvent} (hs : st.Got) (hc : CleanTexts l)
    (h : Signature.other el st l = .ok (b, st', l')) : st'.Got ∧ CleanTexts l' := by
  unfold Signature.other at h
  obtain ⟨⟨x, m⟩, hx, h⟩ := xbind h
  obtain ⟨g1, g2⟩ := Signer.gets _ _ _ _ _ hc hx
  cases h
  exact ⟨{ hs with signature := fun z e => by cases e; exact g1 }, g2⟩

theorem Signature.step_gets {el : XName} {st : Signature.Vars} {e : XEvent} {l : List XEvent} {b : Bool}
    {st' : Signature.Vars} {l' : List XEvent} (hs : st.Got) (hc : CleanTexts l)
    (h : Signature.step el st e l = .ok (b, st', l')) : st'.Got ∧ CleanTexts l' := by
  unfold Signature.step at h
  split at h
  · split at h
    · rename_i act hact
      obtain ⟨⟨s2, l2⟩, h2, e2⟩ := xmap h
      cases e2
      obtain ⟨p, hp, rfl⟩ := lookup_mem' hact
      exact Signature.armsGet p hp _ _ _ _ _ _ hs hc h2
    · exact Signature.other_gets hs hc h
  · split at h
    · cases h; exact ⟨hs, hc⟩
    · exact Signature.other_gets hs hc h
  · exact Signature.other_gets hs hc h

theorem Signature.loop_gets {el : XName} : ∀ {fuel : Nat} {st : Signature.Vars} {evs : List XEvent}
    {st' : Signature.Vars} {rest : List XEvent}, st.Got → CleanTexts evs →
    Signature.loop el fuel st evs = .ok (st', rest) → st'.Got ∧ CleanTexts rest
  | 0, _, _, _, _, _, _, h => by cases h
  | _ + 1, _, [], _, _, _, _, h => by cases h
  | fuel + 1, st, e :: l, st', rest, hs, hc, h => by
    simp only [Signature.loop] at h
    split at h
    · cases h
    · rename_i r hr
      cases h
      exact Signature.step_gets hs hc.tail hr
    · rename_i s2 l2 h2
      split at h
      · obtain ⟨g1, g2⟩ := Signature.step_gets hs hc.tail h2
        exact Signature.loop_gets g1 g2 h
      · cases h

theorem Signature.gets : Gets Signature.readXml fun x => Signature.XmlOk x := by
  intro el attrs evs x rest hc h
  unfold Signature.readXml at h
  obtain ⟨⟨st, l⟩, hl, h⟩ := xbind h
  obtain ⟨y, hy, h⟩ := xbind h
  obtain ⟨g1, g2⟩ := Signature.loop_gets (st := {}) { signature := nofun, value := nofun } hc hl
  cases h
  refine ⟨?_, g2⟩
  unfold Signature.fin at hy
  split at hy
  · rename_i s e
    cases hy
    exact g1.signature _ e
  · obtain ⟨a, ha, hy⟩ := xbind hy
    obtain ⟨w, hw, hy⟩ := xbind hy
    cases hy
    exact { algorithm := ⟨Algorithm.spec_stable a, Algorithm.spec_trimmed a⟩,
            value := g1.value _ (required_eq hw) }

theorem Dependency.gets : Gets Dependency.readXml fun _ => True := by
  unfold Dependency.readXml
  refine struct_gets (fun _ => True) trivial ?_ fun _ _ _ _ _ _ _ _ => trivial
  unfold Dependency.arms
  exact armsGetCons (arm_gets readRef_gets fun _ _ _ _ => trivial) armsGetNil

/-- What is known of the local variables of the reader of `Composition`. -/
structure Composition.Vars.Got (v : SpecVersion) (s : Composition.Vars) : Prop where
  aggregate : ∀ y, s.aggregate = some y → Trimmed (AggregateType.display y)
  signature : ∀ y, s.signature = some y → Signature.XmlOk y
  signature_none : v = .v1_3 → s.signature = none
  vulnerabilities_none : v ≠ .v1_5 → s.vulnerabilities = none

theorem Composition.gets (hu : v.ord ≤ w.ord) : Gets (Composition.readXml v) fun x => (Composition.XmlKept w x → Composition.XmlOk w x) ∧ Composition.at w x = x := by
  unfold Composition.readXml
  refine struct_gets (Composition.Vars.Got w) { aggregate := noneAll, signature := noneAll, signature_none := fun _ => rfl, vulnerabilities_none := fun _ => rfl } ?_ ?_
  · unfold Composition.arms
    exact (armsGetAppend (armsGetAppend (armsGetCons (arm_gets AggregateType.gets fun y s h hy => { h with aggregate := fun z e => by cases e; exact hy }) <|
      armsGetCons (arm_gets (list_gets readRef_gets) fun y s h _ => { h with  }) <|
      armsGetCons (arm_gets (list_gets readRef_gets) fun y s h _ => { h with  }) <|
      armsGetNil)
      (armsGet14 hu fun hv => armsGetCons (arm_gets Signature.gets fun y s h hy => { h with signature := fun z e => by cases e; exact hy, signature_none := fun e => absurd e hv }) <|
      armsGetNil))
      (armsGet15 hu fun hv => armsGetCons (arm_gets (list_gets readRef_gets) fun y s h _ => { h with vulnerabilities_none := fun e => absurd hv e }) <|
      armsGetNil))
  · intro el attrs p s x hp hs h
    obtain ⟨aggregate', e_aggregate, h⟩ := xbind h
    have e_aggregate := required_eq e_aggregate
    cases h
    have n_bomRef : since15 w p none = p := by cases hp; cases w <;> cases v <;> first | rfl | exact absurd hu (by decide)
    have n_signature : since14 w s.signature none = s.signature := since14_none hs.signature_none
    have n_vulnerabilities : since15 w s.vulnerabilities none = s.vulnerabilities := since15_none hs.vulnerabilities_none
    exact ⟨fun hk => { aggregate := ⟨hk.aggregate, hs.aggregate _ e_aggregate⟩,
                       signature := fun hv y hy => (hs.signature y hy) }, by simp only [Composition.at, n_bomRef, n_signature, n_vulnerabilities]⟩

/-- What is known of the local variables of the reader of `IdentifiableAction`. -/
structure IdentifiableAction.Vars.Got (s : IdentifiableAction.Vars) : Prop where
  timestamp : ∀ y, s.timestamp = some y → Trimmed y
  name : ∀ y, s.name = some y → Trimmed y
  email : ∀ y, s.email = some y → Trimmed y

theorem IdentifiableAction.gets : Gets (IdentifiableAction.readXml) fun x => IdentifiableAction.XmlOk x := by
  unfold IdentifiableAction.readXml
  refine struct_gets (IdentifiableAction.Vars.Got) { timestamp := noneAll, name := noneAll, email := noneAll } ?_ ?_
  · unfold IdentifiableAction.arms
    exact armsGetCons (arm_gets readSimple_gets fun y s h hy => { h with timestamp := fun z e => by cases e; exact hy }) <|
      armsGetCons (arm_gets readSimple_gets fun y s h hy => { h with name := fun z e => by cases e; exact hy }) <|
      armsGetCons (arm_gets readSimple_gets fun y s h hy => { h with email := fun z e => by cases e; exact hy }) <|
      armsGetNil
  · intro el attrs p s x hp hs h
    cases h
    exact { timestamp := fun y hy => hs.timestamp y hy,
            name := fun y hy => hs.name y hy,
            email := fun y hy => hs.email y hy }

/-- What is known of the local variables of the reader of `Commit`. -/
structure Commit.Vars.Got (s : Commit.Vars) : Prop where
  uid : ∀ y, s.uid = some y → Trimmed y
  url : ∀ y, s.url = some y → Trimmed y
  author : ∀ y, s.author = some y → IdentifiableAction.XmlOk y
  committer : ∀ y, s.committer = some y → IdentifiableAction.XmlOk y
  message : ∀ y, s.message = some y → Trimmed y

theorem Commit.gets : Gets (Commit.readXml) fun x => Commit.XmlOk x := by
  unfold Commit.readXml
  refine struct_gets (Commit.Vars.Got) { uid := noneAll, url := noneAll, author := noneAll, committer := noneAll, message := noneAll } ?_ ?_
  · unfold Commit.arms
    exact armsGetCons (arm_gets readSimple_gets fun y s h hy => { h with uid := fun z e => by cases e; exact hy }) <|
      armsGetCons (arm_gets readSimple_gets fun y s h hy => { h with url := fun z e => by cases e; exact hy }) <|
      armsGetCons (arm_gets IdentifiableAction.gets fun y s h hy => { h with author := fun z e => by cases e; exact hy }) <|
      armsGetCons (arm_gets IdentifiableAction.gets fun y s h hy => { h with committer := fun z e => by cases e; exact hy }) <|
      armsGetCons (arm_gets readSimple_gets fun y s h hy => { h with message := fun z e => by cases e; exact hy }) <|
      armsGetNil
  · intro el attrs p s x hp hs h
    cases h
    exact { uid := fun y hy => hs.uid y hy,
            url := fun y hy => hs.url y hy,
            author := fun y hy => (hs.author y hy),
            committer := fun y hy => (hs.committer y hy),
            message := fun y hy => hs.message y hy }

/-- What is known of the local variables of the reader of `Diff`. -/
structure Diff.Vars.Got (s : Diff.Vars) : Prop where
  text : ∀ y, s.text = some y → AttachedText.XmlOk y
  url : ∀ y, s.url = some y → Trimmed y

theorem Diff.gets : Gets (Diff.readXml) fun x => Diff.XmlOk x := by
  unfold Diff.readXml
  refine struct_gets (Diff.Vars.Got) { text := noneAll, url := noneAll } ?_ ?_
  · unfold Diff.arms
    exact armsGetCons (arm_gets AttachedText.gets fun y s h hy => { h with text := fun z e => by cases e; exact hy }) <|
      armsGetCons (arm_gets readSimple_gets fun y s h hy => { h with url := fun z e => by cases e; exact hy }) <|
      armsGetNil
  · intro el attrs p s x hp hs h
    cases h
    exact { text := fun y hy => (hs.text y hy),
            url := fun y hy => hs.url y hy }

/-- What is known of the local variables of the reader of `Source`. -/
structure Source.Vars.Got (s : Source.Vars) : Prop where
  name : ∀ y, s.name = some y → Trimmed y
  url : ∀ y, s.url = some y → Trimmed y

theorem Source.gets : Gets (Source.readXml) fun x => Source.XmlOk x := by
  unfold Source.readXml
  refine struct_gets (Source.Vars.Got) { name := noneAll, url := noneAll } ?_ ?_
  · unfold Source.arms
    exact armsGetCons (arm_gets readSimple_gets fun y s h hy => { h with name := fun z e => by cases e; exact hy }) <|
      armsGetCons (arm_gets readSimple_gets fun y s h hy => { h with url := fun z e => by cases e; exact hy }) <|
      armsGetNil
  · intro el attrs p s x hp hs h
    cases h
    exact { name := fun y hy => hs.name y hy,
            url := fun y hy => hs.url y hy }

/-- What is known of the local variables of the reader of `Issue`. -/
structure Issue.Vars.Got (s : Issue.Vars) : Prop where
  id : ∀ y, s.id = some y → Trimmed y
  name : ∀ y, s.name = some y → Trimmed y
  description : ∀ y, s.description = some y → Trimmed y
  source : ∀ y, s.source = some y → Source.XmlOk y
  references : ∀ y, s.references = some y → ∀ z ∈ y, Trimmed z

theorem Issue.gets : Gets (Issue.readXml) fun x => (Issue.XmlKept x → Issue.XmlOk x) := by
  unfold Issue.readXml
  refine struct_gets (Issue.Vars.Got) { id := noneAll, name := noneAll, description := noneAll, source := noneAll, references := noneAll } ?_ ?_
  · unfold Issue.arms
    exact armsGetCons (arm_gets readSimple_gets fun y s h hy => { h with id := fun z e => by cases e; exact hy }) <|
      armsGetCons (arm_gets readSimple_gets fun y s h hy => { h with name := fun z e => by cases e; exact hy }) <|
      armsGetCons (arm_gets readSimple_gets fun y s h hy => { h with description := fun z e => by cases e; exact hy }) <|
      armsGetCons (arm_gets Source.gets fun y s h hy => { h with source := fun z e => by cases e; exact hy }) <|
      armsGetCons (arm_gets (list_gets readSimple_gets) fun y s h hy => { h with references := fun z e => by cases e; exact hy }) <|
      armsGetNil
  · intro el attrs p s x hp hs h
    cases h
    exact fun hk => { issueType := IssueClassification.new_stable _,
                      id := fun y hy => hs.id y hy,
                      name := fun y hy => hs.name y hy,
                      description := fun y hy => hs.description y hy,
                      source := fun y hy => ⟨(hs.source y hy), (hk.source y hy)⟩,
                      references := fun y hy z hz => hs.references y hy z hz }

/-- What is known of the local variables of the reader of `Patch`. -/
structure Patch.Vars.Got (s : Patch.Vars) : Prop where
  diff : ∀ y, s.diff = some y → Diff.XmlOk y
  resolves : ∀ y, s.resolves = some y → ∀ z ∈ y, (Issue.XmlKept z → Issue.XmlOk z)

theorem Patch.gets : Gets (Patch.readXml) fun x => (Patch.XmlKept x → Patch.XmlOk x) := by
  unfold Patch.readXml
  refine struct_gets (Patch.Vars.Got) { diff := noneAll, resolves := noneAll } ?_ ?_
  · unfold Patch.arms
    exact armsGetCons (arm_gets Diff.gets fun y s h hy => { h with diff := fun z e => by cases e; exact hy }) <|
      armsGetCons (arm_gets (list_gets Issue.gets) fun y s h hy => { h with resolves := fun z e => by cases e; exact hy }) <|
      armsGetNil
  · intro el attrs p s x hp hs h
    cases h
    exact fun hk => { patchType := PatchClassification.new_stable _,
                      diff := fun y hy => ⟨(hs.diff y hy), (hk.diff y hy)⟩,
                      resolves := fun y hy z hz => (hs.resolves y hy z hz) (hk.resolves y hy z hz) }

/-- What is known of the local variables of the reader of `VulnerabilityAnalysis`. -/
structure VulnerabilityAnalysis.Vars.Got (v : SpecVersion) (s : VulnerabilityAnalysis.Vars) : Prop where
  state : ∀ y, s.state = some y → Stable ImpactAnalysisState.display ImpactAnalysisState.new y ∧ Trimmed (ImpactAnalysisState.display y)
  justification : ∀ y, s.justification = some y → Stable ImpactAnalysisJustification.display ImpactAnalysisJustification.new y ∧ Trimmed (ImpactAnalysisJustification.display y)
  responses : ∀ y, s.responses = some y → ∀ z ∈ y, Stable ImpactAnalysisResponse.display ImpactAnalysisResponse.new z ∧ Trimmed (ImpactAnalysisResponse.display z)
  detail : ∀ y, s.detail = some y → Trimmed y
  firstIssued : ∀ y, s.firstIssued = some y → Trimmed y
  firstIssued_none : v ≠ .v1_5 → s.firstIssued = none
  lastUpdated : ∀ y, s.lastUpdated = some y → Trimmed y
  lastUpdated_none : v ≠ .v1_5 → s.lastUpdated = none

theorem VulnerabilityAnalysis.gets (hu : v.ord ≤ w.ord) : Gets (VulnerabilityAnalysis.readXml v) fun x => VulnerabilityAnalysis.XmlOk w x ∧ VulnerabilityAnalysis.at w x = x := by
  unfold VulnerabilityAnalysis.readXml
  refine struct_gets (VulnerabilityAnalysis.Vars.Got w) { state := noneAll, justification := noneAll, responses := noneAll, detail := noneAll, firstIssued := noneAll, firstIssued_none := fun _ => rfl, lastUpdated := noneAll, lastUpdated_none := fun _ => rfl } ?_ ?_
  · unfold VulnerabilityAnalysis.arms
    exact (armsGetAppend (armsGetCons (arm_gets (enum_gets ImpactAnalysisState.new_stable ImpactAnalysisState.display_new) fun y s h hy => { h with state := fun z e => by cases e; exact hy }) <|
      armsGetCons (arm_gets (enum_gets ImpactAnalysisJustification.new_stable ImpactAnalysisJustification.display_new) fun y s h hy => { h with justification := fun z e => by cases e; exact hy }) <|
      armsGetCons (arm_gets (list_gets (enum_gets ImpactAnalysisResponse.new_stable ImpactAnalysisResponse.display_new)) fun y s h hy => { h with responses := fun z e => by cases e; exact hy }) <|
      armsGetCons (arm_gets readSimple_gets fun y s h hy => { h with detail := fun z e => by cases e; exact hy }) <|
      armsGetNil)
      (armsGet15 hu fun hv => armsGetCons (arm_gets readSimple_gets fun y s h hy => { h with firstIssued := fun z e => by cases e; exact hy, firstIssued_none := fun e => absurd hv e }) <|
      armsGetCons (arm_gets readSimple_gets fun y s h hy => { h with lastUpdated := fun z e => by cases e; exact hy, lastUpdated_none := fun e => absurd hv e }) <|
      armsGetNil))
  · intro el attrs p s x hp hs h
    cases h
    have n_firstIssued : since15 w s.firstIssued none = s.firstIssued := since15_none hs.firstIssued_none
    have n_lastUpdated : since15 w s.lastUpdated none = s.lastUpdated := since15_none hs.lastUpdated_none
    exact ⟨{ state := fun y hy => ⟨(hs.state y hy).1, (hs.state y hy).2⟩,
             justification := fun y hy => ⟨(hs.justification y hy).1, (hs.justification y hy).2⟩,
             responses := fun y hy z hz => ⟨(hs.responses y hy z hz).1, (hs.responses y hy z hz).2⟩,
             detail := fun y hy => hs.detail y hy,
             firstIssued := fun hv y hy => hs.firstIssued y hy,
             lastUpdated := fun hv y hy => hs.lastUpdated y hy }, by simp only [VulnerabilityAnalysis.at, n_firstIssued, n_lastUpdated]⟩

/-- What is known of the local variables of the reader of `TargetVersion`. -/
structure TargetVersion.Vars.Got (s : TargetVersion.Vars) : Prop where
  versionRange : ∀ y, s.versionRange = some y → VersionRange.XmlOk y
  status : ∀ y, s.status = some y → Stable Status.display Status.new y ∧ Trimmed (Status.display y)

theorem TargetVersion.gets : Gets (TargetVersion.readXml) fun x => TargetVersion.XmlOk x := by
  unfold TargetVersion.readXml
  refine struct_gets (TargetVersion.Vars.Got) { versionRange := noneAll, status := noneAll } ?_ ?_
  · unfold TargetVersion.arms
    exact armsGetCons (arm_gets readSimple_gets fun y s h hy => { h with versionRange := fun z e => by cases e; first | exact hy | exact fun _ => hy }) <|
      armsGetCons (arm_gets readSimple_gets fun y s h hy => { h with versionRange := fun z e => by cases e; first | exact hy | exact fun _ => hy }) <|
      armsGetCons (arm_gets (enum_gets Status.new_stable Status.display_new) fun y s h hy => { h with status := fun z e => by cases e; exact hy }) <|
      armsGetNil
  · intro el attrs p s x hp hs h
    obtain ⟨versionRange', e_versionRange, h⟩ := xbind h
    have e_versionRange := required_eq e_versionRange
    cases h
    exact { versionRange := (hs.versionRange _ e_versionRange),
            status := option_getD (P := fun z => Stable Status.display Status.new z ∧ Trimmed (Status.display z)) hs.status ⟨rfl, rfl⟩ }

/-- What is known of the local variables of the reader of `VulnerabilityTarget`. -/
structure VulnerabilityTarget.Vars.Got (s : VulnerabilityTarget.Vars) : Prop where
  bomRef : ∀ y, s.bomRef = some y → Trimmed y
  versions : ∀ y, s.versions = some y → ∀ z ∈ y, TargetVersion.XmlOk z

theorem VulnerabilityTarget.gets : Gets (VulnerabilityTarget.readXml) fun x => VulnerabilityTarget.XmlOk x := by
  unfold VulnerabilityTarget.readXml
  refine struct_gets (VulnerabilityTarget.Vars.Got) { bomRef := noneAll, versions := noneAll } ?_ ?_
  · unfold VulnerabilityTarget.arms
    exact armsGetCons (arm_gets readSimple_gets fun y s h hy => { h with bomRef := fun z e => by cases e; exact hy }) <|
      armsGetCons (arm_gets (list_gets TargetVersion.gets) fun y s h hy => { h with versions := fun z e => by cases e; exact hy }) <|
      armsGetNil
  · intro el attrs p s x hp hs h
    obtain ⟨bomRef', e_bomRef, h⟩ := xbind h
    have e_bomRef := required_eq e_bomRef
    cases h
    exact { bomRef := hs.bomRef _ e_bomRef,
            versions := fun y hy z hz => (hs.versions y hy z hz) }

end Cdx
