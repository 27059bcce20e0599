import Verif.Lemmas.Gets.Bom

set_option linter.unusedSectionVars false
set_option linter.unusedSimpArgs false
set_option linter.unusedVariables false

/-!
# Whatever is read in a version has only fields of that version

Unlike `Gets`, this holds for all events, with or without white space around the texts.
-/

namespace Cdx

section
variable {σ α β ρ : Type}

/-- Whatever a reader returns satisfies a condition. -/
def Finds (r : XElem α) (Q : α → Prop) : Prop :=
  ∀ el attrs evs x rest, r el attrs evs = .ok (x, rest) → Q x

/-- An arm keeps a condition on the local variables. -/
def ArmFinds (P : σ → Prop) (a : Arm σ) : Prop :=
  ∀ n attrs st evs st' rest, P st → a n attrs st evs = .ok (st', rest) → P st'

/-- All arms keep a condition. -/
def ArmsFind (P : σ → Prop) (arms : List (String × Arm σ)) : Prop := ∀ p ∈ arms, ArmFinds P p.2

theorem finds_any {r : XElem α} : Finds r fun _ => True := fun _ _ _ _ _ _ => trivial

theorem readLoop_finds {P : σ → Prop} {mode : Unknown} {isEnd : XName → Bool} {el : XName}
    {arms : List (String × Arm σ)} (ha : ArmsFind P arms) :
    ∀ {fuel st evs st' rest}, P st →
      readLoop mode isEnd el arms fuel st evs = .ok (st', rest) → P st'
  | 0, _, _, _, _, _, h => by cases h
  | fuel + 1, st, [], _, _, _, h => by cases h
  | fuel + 1, st, .start n attrs ns :: l, st', rest, hs, h => by
    simp only [readLoop] at h
    split at h
    · rename_i act hact
      split at h
      · rename_i s2 l2 h2
        split at h
        · obtain ⟨p, hp, rfl⟩ := lookup_mem' hact
          exact readLoop_finds ha (ha p hp _ _ _ _ _ _ hs h2) h
        · cases h
      · cases h
    · cases mode with
      | fail => cases h
      | skip =>
        dsimp only at h
        split at h
        · rename_i l2 h2
          split at h
          · exact readLoop_finds ha hs h
          · cases h
        · cases h
      | ignore => exact readLoop_finds ha hs h
  | fuel + 1, st, .stop n :: l, st', rest, hs, h => by
    simp only [readLoop] at h
    split at h
    · cases h; exact hs
    · split at h
      · exact readLoop_finds ha hs h
      · cases h
  | fuel + 1, st, .startDocument :: l, st', rest, hs, h => by
    simp only [readLoop] at h
    split at h
    · exact readLoop_finds ha hs h
    · cases h
  | fuel + 1, st, .chars _ :: l, st', rest, hs, h => by
    simp only [readLoop] at h
    split at h
    · exact readLoop_finds ha hs h
    · cases h
  | fuel + 1, st, .cdata _ :: l, st', rest, hs, h => by
    simp only [readLoop] at h
    split at h
    · exact readLoop_finds ha hs h
    · cases h
  | fuel + 1, st, .other :: l, st', rest, hs, h => by
    simp only [readLoop] at h
    split at h
    · exact readLoop_finds ha hs h
    · cases h
  | fuel + 1, st, .endDocument :: l, st', rest, hs, h => by
    simp only [readLoop] at h
    split at h
    · exact readLoop_finds ha hs h
    · cases h

theorem struct_finds {mode : Unknown} {pre : XName → List (String × String) → Except XErr ρ}
    {init : σ} {arms : List (String × Arm σ)} {fin : XName → ρ → σ → Except XErr α} {Q : α → Prop}
    (P : σ → Prop) (h0 : P init) (ha : ArmsFind P arms)
    (hf : ∀ el attrs p s x, pre el attrs = .ok p → P s → fin el p s = .ok x → Q x) :
    Finds (readStruct mode pre init arms fin) Q := by
  intro el attrs evs x rest h
  unfold readStruct at h
  obtain ⟨p, hp, h⟩ := xbind h
  obtain ⟨⟨s, l⟩, hl, h⟩ := xbind h
  obtain ⟨y, hy, h⟩ := xbind h
  have g1 := readLoop_finds ha h0 hl
  cases h
  exact hf _ _ _ _ _ hp g1 hy

theorem arm_finds {r : XElem α} {set : α → σ → σ} {P : σ → Prop} {Q : α → Prop} (hr : Finds r Q)
    (hs : ∀ y s, P s → Q y → P (set y s)) : ArmFinds P (arm r set) := by
  intro n attrs st evs st' rest hp h
  unfold arm at h
  obtain ⟨⟨y, l⟩, hl, h⟩ := xbind h
  have g1 := hr _ _ _ _ _ hl
  cases h
  exact hs _ _ hp g1

theorem armOnce_finds {r : XElem α} {isSet : σ → Bool} {set : α → σ → σ} {P : σ → Prop}
    {Q : α → Prop} (hr : Finds r Q) (hs : ∀ y s, P s → Q y → P (set y s)) :
    ArmFinds P (armOnce r isSet set) := by
  intro n attrs st evs st' rest hp h
  unfold armOnce at h
  split at h
  · cases h
  · exact arm_finds hr hs _ _ _ _ _ _ hp h

theorem armsFindNil {P : σ → Prop} : ArmsFind P [] := nofun

theorem armsFindCons {P : σ → Prop} {t : String} {a : Arm σ} {l : List (String × Arm σ)}
    (h : ArmFinds P a) (hl : ArmsFind P l) : ArmsFind P ((t, a) :: l) := fun p hp => by
  cases hp with
  | head => exact h
  | tail _ hp => exact hl p hp

theorem armsFindAppend {P : σ → Prop} {l m : List (String × Arm σ)} (h : ArmsFind P l)
    (hl : ArmsFind P m) : ArmsFind P (l ++ m) := fun p hp =>
  (List.mem_append.mp hp).elim (h p) (hl p)

theorem armsFind14 {v w : SpecVersion} {P : σ → Prop} {l : List (String × Arm σ)} (hu : v.ord ≤ w.ord)
    (h : w ≠ .v1_3 → ArmsFind P l) : ArmsFind P (since14 v l []) := by
  cases v with
  | v1_3 => exact armsFindNil
  | v1_4 => exact h (by rintro rfl; exact absurd hu (by decide))
  | v1_5 => exact h (by rintro rfl; exact absurd hu (by decide))

theorem armsFind15 {v w : SpecVersion} {P : σ → Prop} {l : List (String × Arm σ)} (hu : v.ord ≤ w.ord)
    (h : w = .v1_5 → ArmsFind P l) : ArmsFind P (since15 v l []) := by
  cases v with
  | v1_3 => exact armsFindNil
  | v1_4 => exact armsFindNil
  | v1_5 => exact h (by cases w <;> first | rfl | exact absurd hu (by decide))

theorem list_finds {mode : Unknown} {inner : String} {r : XElem α} {Q : α → Prop} (hr : Finds r Q) :
    Finds (readListWith mode inner r) fun l => ∀ z ∈ l, Q z := by
  intro el attrs evs x rest h
  exact readLoop_finds (P := fun l : List α => ∀ z ∈ l, Q z)
    (armsFindCons (arm_finds hr fun y s hs hy => forall_snoc hs hy) armsFindNil) (fun _ hz => by cases hz) h

end

variable [F32Format] [ReadLimit] {v w : SpecVersion}

/-- What is known of the local variables of the reader of `License`. -/
structure License.Vars.New (v : SpecVersion) (s : License.Vars) : Prop where
  licensing_none : v ≠ .v1_5 → s.licensing = none
  properties_none : v ≠ .v1_5 → s.properties = none

theorem License.finds (hu : v.ord ≤ w.ord) : Finds (License.readXml v) fun x => License.at w x = x := by
  unfold License.readXml
  refine struct_finds (License.Vars.New w) { licensing_none := fun _ => rfl, properties_none := fun _ => rfl } ?_ ?_
  · unfold License.arms
    exact (armsFindAppend (armsFindCons (armOnce_finds finds_any fun y s h _ => { h with  }) <|
      armsFindCons (armOnce_finds finds_any fun y s h _ => { h with  }) <|
      armsFindCons (arm_finds finds_any fun y s h _ => { h with  }) <|
      armsFindCons (arm_finds finds_any fun y s h _ => { h with  }) <|
      armsFindNil)
      (armsFind15 hu fun hv => armsFindCons (arm_finds finds_any fun y s h _ => { h with licensing_none := fun e => absurd hv e }) <|
      armsFindCons (arm_finds finds_any fun y s h _ => { h with properties_none := fun e => absurd hv e }) <|
      armsFindNil))
  · intro el attrs p s x hp hs h
    obtain ⟨licenseIdentifier', e_licenseIdentifier, h⟩ := xbind h
    have e_licenseIdentifier := required_eq e_licenseIdentifier
    cases h
    have n_bomRef : since15 w p none = p := by cases hp; cases w <;> cases v <;> first | rfl | exact absurd hu (by decide)
    have n_licensing : since15 w s.licensing none = s.licensing := since15_none hs.licensing_none
    have n_properties : since15 w s.properties none = s.properties := since15_none hs.properties_none
    exact by simp only [License.at, n_bomRef, n_licensing, n_properties]

theorem Licenses.finds (hu : v.ord ≤ w.ord) : Finds (Licenses.readXml v) fun x => Licenses.at w x = x := by
  unfold Licenses.readXml
  refine struct_finds (fun l : Licenses => ∀ z ∈ l, LicenseChoice.at w z = z) (fun _ hz => by cases hz) ?_ ?_
  · unfold Licenses.arms
    exact armsFindCons (arm_finds (License.finds hu) fun y s h hy => forall_snoc h (congrArg LicenseChoice.license hy)) <|
      armsFindCons (arm_finds finds_any fun y s h _ => forall_snoc h rfl) armsFindNil
  · intro el attrs p s x hp hs h
    cases h
    exact listMap_id fun z hz => hs z hz

/-- What is known of the local variables of the reader of `Composition`. -/
structure Composition.Vars.New (v : SpecVersion) (s : Composition.Vars) : Prop where
  signature_none : v = .v1_3 → s.signature = none
  vulnerabilities_none : v ≠ .v1_5 → s.vulnerabilities = none

theorem Composition.finds (hu : v.ord ≤ w.ord) : Finds (Composition.readXml v) fun x => Composition.at w x = x := by
  unfold Composition.readXml
  refine struct_finds (Composition.Vars.New w) { signature_none := fun _ => rfl, vulnerabilities_none := fun _ => rfl } ?_ ?_
  · unfold Composition.arms
    exact (armsFindAppend (armsFindAppend (armsFindCons (arm_finds finds_any fun y s h _ => { h with  }) <|
      armsFindCons (arm_finds finds_any fun y s h _ => { h with  }) <|
      armsFindCons (arm_finds finds_any fun y s h _ => { h with  }) <|
      armsFindNil)
      (armsFind14 hu fun hv => armsFindCons (arm_finds finds_any fun y s h _ => { h with signature_none := fun e => absurd e hv }) <|
      armsFindNil))
      (armsFind15 hu fun hv => armsFindCons (arm_finds finds_any fun y s h _ => { h with vulnerabilities_none := fun e => absurd hv e }) <|
      armsFindNil))
  · intro el attrs p s x hp hs h
    obtain ⟨aggregate', e_aggregate, h⟩ := xbind h
    have e_aggregate := required_eq e_aggregate
    cases h
    have n_bomRef : since15 w p none = p := by cases hp; cases w <;> cases v <;> first | rfl | exact absurd hu (by decide)
    have n_signature : since14 w s.signature none = s.signature := since14_none hs.signature_none
    have n_vulnerabilities : since15 w s.vulnerabilities none = s.vulnerabilities := since15_none hs.vulnerabilities_none
    exact by simp only [Composition.at, n_bomRef, n_signature, n_vulnerabilities]

/-- What is known of the local variables of the reader of `VulnerabilityAnalysis`. -/
structure VulnerabilityAnalysis.Vars.New (v : SpecVersion) (s : VulnerabilityAnalysis.Vars) : Prop where
  firstIssued_none : v ≠ .v1_5 → s.firstIssued = none
  lastUpdated_none : v ≠ .v1_5 → s.lastUpdated = none

theorem VulnerabilityAnalysis.finds (hu : v.ord ≤ w.ord) : Finds (VulnerabilityAnalysis.readXml v) fun x => VulnerabilityAnalysis.at w x = x := by
  unfold VulnerabilityAnalysis.readXml
  refine struct_finds (VulnerabilityAnalysis.Vars.New w) { firstIssued_none := fun _ => rfl, lastUpdated_none := fun _ => rfl } ?_ ?_
  · unfold VulnerabilityAnalysis.arms
    exact (armsFindAppend (armsFindCons (arm_finds finds_any fun y s h _ => { h with  }) <|
      armsFindCons (arm_finds finds_any fun y s h _ => { h with  }) <|
      armsFindCons (arm_finds finds_any fun y s h _ => { h with  }) <|
      armsFindCons (arm_finds finds_any fun y s h _ => { h with  }) <|
      armsFindNil)
      (armsFind15 hu fun hv => armsFindCons (arm_finds finds_any fun y s h _ => { h with firstIssued_none := fun e => absurd hv e }) <|
      armsFindCons (arm_finds finds_any fun y s h _ => { h with lastUpdated_none := fun e => absurd hv e }) <|
      armsFindNil))
  · intro el attrs p s x hp hs h
    cases h
    have n_firstIssued : since15 w s.firstIssued none = s.firstIssued := since15_none hs.firstIssued_none
    have n_lastUpdated : since15 w s.lastUpdated none = s.lastUpdated := since15_none hs.lastUpdated_none
    exact by simp only [VulnerabilityAnalysis.at, n_firstIssued, n_lastUpdated]

/-- What is known of the local variables of the reader of `ComponentEvidence`. -/
structure ComponentEvidence.Vars.New (v : SpecVersion) (s : ComponentEvidence.Vars) : Prop where
  licenses : ∀ y, s.licenses = some y → Licenses.at v y = y
  occurrences_none : v ≠ .v1_5 → s.occurrences = none
  callstack_none : v ≠ .v1_5 → s.callstack = none
  identity_none : v ≠ .v1_5 → s.identity = none

theorem ComponentEvidence.finds (hu : v.ord ≤ w.ord) : Finds (ComponentEvidence.readXml v) fun x => ComponentEvidence.at w x = x := by
  unfold ComponentEvidence.readXml
  refine struct_finds (ComponentEvidence.Vars.New w) { licenses := noneAll, occurrences_none := fun _ => rfl, callstack_none := fun _ => rfl, identity_none := fun _ => rfl } ?_ ?_
  · unfold ComponentEvidence.arms
    exact (armsFindAppend (armsFindCons (arm_finds (Licenses.finds hu) fun y s h hy => { h with licenses := fun z e => by cases e; exact hy }) <|
      armsFindCons (arm_finds finds_any fun y s h _ => { h with  }) <|
      armsFindNil)
      (armsFind15 hu fun hv => armsFindCons (arm_finds finds_any fun y s h _ => { h with occurrences_none := fun e => absurd hv e }) <|
      armsFindCons (arm_finds finds_any fun y s h _ => { h with callstack_none := fun e => absurd hv e }) <|
      armsFindCons (arm_finds finds_any fun y s h _ => { h with identity_none := fun e => absurd hv e }) <|
      armsFindNil))
  · intro el attrs p s x hp hs h
    cases h
    have n_callstack : since15 w s.callstack none = s.callstack := since15_none hs.callstack_none
    have n_identity : since15 w s.identity none = s.identity := since15_none hs.identity_none
    have a_licenses : s.licenses.map (Licenses.at w) = s.licenses := optMap_id fun y hy => (hs.licenses y hy)
    have n_occurrences : since15 w s.occurrences none = s.occurrences := since15_none hs.occurrences_none
    exact by simp only [ComponentEvidence.at, n_callstack, n_identity, a_licenses, n_occurrences]

theorem ServiceDataChoice.finds (hu : v.ord ≤ w.ord) : Finds (ServiceDataChoice.readXml v) fun x =>
    ServiceDataChoice.at w x = x := by
  unfold ServiceDataChoice.readXml
  refine struct_finds (fun s => w ≠ .v1_5 → s.serviceData = []) (fun _ => rfl) ?_ ?_
  · unfold ServiceDataChoice.arms
    exact (armsFindAppend (armsFindCons (arm_finds finds_any fun y s h _ => h) armsFindNil)
      (armsFind15 hu fun hv => armsFindCons (arm_finds finds_any fun y s h _ => fun e => absurd hv e)
        armsFindNil))
  · intro el attrs p s x hp hs h
    cases h
    split
    · rfl
    · rename_i hne
      have e : w = .v1_5 := by
        by_cases h : w = .v1_5
        · exact h
        · rw [hs h] at hne; exact absurd rfl hne
      subst e
      rfl

/-- What is known of the local variables of the reader of `Pedigree`. -/
structure Pedigree.Vars.New (v : SpecVersion) (s : Pedigree.Vars) : Prop where
  ancestors : ∀ y, s.ancestors = some y → ∀ z ∈ y, Component.at v z = z
  descendants : ∀ y, s.descendants = some y → ∀ z ∈ y, Component.at v z = z
  variants : ∀ y, s.variants = some y → ∀ z ∈ y, Component.at v z = z

theorem Pedigree.finds_with (hu : v.ord ≤ w.ord) {sub : XElem Component}
    (hsub : Finds sub fun z => Component.at w z = z) :
    Finds (Pedigree.readXmlWith sub v) fun x => Pedigree.at w x = x := by
  unfold Pedigree.readXmlWith
  refine struct_finds (Pedigree.Vars.New w) { ancestors := noneAll, descendants := noneAll, variants := noneAll } ?_ ?_
  · unfold Pedigree.armsWith
    exact armsFindCons (arm_finds (list_finds hsub) fun y s h hy => { h with ancestors := fun z e => by cases e; exact hy }) <|
      armsFindCons (arm_finds (list_finds hsub) fun y s h hy => { h with descendants := fun z e => by cases e; exact hy }) <|
      armsFindCons (arm_finds (list_finds hsub) fun y s h hy => { h with variants := fun z e => by cases e; exact hy }) <|
      armsFindCons (arm_finds finds_any fun y s h _ => { h with  }) <|
      armsFindCons (arm_finds finds_any fun y s h _ => { h with  }) <|
      armsFindCons (arm_finds finds_any fun y s h _ => { h with  }) <|
      armsFindNil
  · intro el attrs p s x hp hs h
    cases h
    have a_ancestors : Component.atOpt w s.ancestors = s.ancestors := by rw [Component.atOpt_eq]; exact optMap_id fun y hy => listMap_id fun z hz => (hs.ancestors y hy z hz)
    have a_descendants : Component.atOpt w s.descendants = s.descendants := by rw [Component.atOpt_eq]; exact optMap_id fun y hy => listMap_id fun z hz => (hs.descendants y hy z hz)
    have a_variants : Component.atOpt w s.variants = s.variants := by rw [Component.atOpt_eq]; exact optMap_id fun y hy => listMap_id fun z hz => (hs.variants y hy z hz)
    exact by simp only [Pedigree.at, a_ancestors, a_descendants, a_variants]

/-- What is known of the local variables of the reader of `Component`. -/
structure Component.Vars.New (v : SpecVersion) (s : Component.Vars) : Prop where
  licenses : ∀ y, s.licenses = some y → Licenses.at v y = y
  pedigree : ∀ y, s.pedigree = some y → Pedigree.at v y = y
  components : ∀ y, s.components = some y → ∀ z ∈ y, Component.at v z = z
  evidence : ∀ y, s.evidence = some y → ComponentEvidence.at v y = y
  signature_none : v = .v1_3 → s.signature = none
  modelCard_none : v ≠ .v1_5 → s.modelCard = none
  data_none : v ≠ .v1_5 → s.data = none

theorem Component.finds_with (hu : v.ord ≤ w.ord) {sub : XElem Component}
    (hsub : Finds sub fun z => Component.at w z = z) :
    Finds (Component.readXmlWith sub v) fun x => Component.at w x = x := by
  unfold Component.readXmlWith
  refine struct_finds (Component.Vars.New w) { licenses := noneAll, pedigree := noneAll, components := noneAll, evidence := noneAll, signature_none := fun _ => rfl, modelCard_none := fun _ => rfl, data_none := fun _ => rfl } ?_ ?_
  · unfold Component.armsWith
    exact (armsFindAppend (armsFindAppend (armsFindCons (arm_finds finds_any fun y s h _ => { h with  }) <|
      armsFindCons (arm_finds finds_any fun y s h _ => { h with  }) <|
      armsFindCons (arm_finds finds_any fun y s h _ => { h with  }) <|
      armsFindCons (arm_finds finds_any fun y s h _ => { h with  }) <|
      armsFindCons (arm_finds finds_any fun y s h _ => { h with  }) <|
      armsFindCons (arm_finds finds_any fun y s h _ => { h with  }) <|
      armsFindCons (arm_finds finds_any fun y s h _ => { h with  }) <|
      armsFindCons (arm_finds finds_any fun y s h _ => { h with  }) <|
      armsFindCons (arm_finds finds_any fun y s h _ => { h with  }) <|
      armsFindCons (arm_finds (Licenses.finds hu) fun y s h hy => { h with licenses := fun z e => by cases e; exact hy }) <|
      armsFindCons (arm_finds finds_any fun y s h _ => { h with  }) <|
      armsFindCons (arm_finds finds_any fun y s h _ => { h with  }) <|
      armsFindCons (arm_finds finds_any fun y s h _ => { h with  }) <|
      armsFindCons (arm_finds finds_any fun y s h _ => { h with  }) <|
      armsFindCons (arm_finds finds_any fun y s h _ => { h with  }) <|
      armsFindCons (arm_finds (Pedigree.finds_with hu hsub) fun y s h hy => { h with pedigree := fun z e => by cases e; exact hy }) <|
      armsFindCons (arm_finds finds_any fun y s h _ => { h with  }) <|
      armsFindCons (arm_finds finds_any fun y s h _ => { h with  }) <|
      armsFindCons (arm_finds (list_finds hsub) fun y s h hy => { h with components := fun z e => by cases e; exact hy }) <|
      armsFindCons (arm_finds (ComponentEvidence.finds hu) fun y s h hy => { h with evidence := fun z e => by cases e; exact hy }) <|
      armsFindNil)
      (armsFind14 hu fun hv => armsFindCons (arm_finds finds_any fun y s h _ => { h with signature_none := fun e => absurd e hv }) <|
      armsFindNil))
      (armsFind15 hu fun hv => armsFindCons (arm_finds finds_any fun y s h _ => { h with modelCard_none := fun e => absurd hv e }) <|
      armsFindCons (arm_finds finds_any fun y s h _ => { h with data_none := fun e => absurd hv e }) <|
      armsFindNil))
  · intro el attrs p s x hp hs h
    obtain ⟨a0, a1, a2⟩ := p
    obtain ⟨name', e_name, h⟩ := xbind h
    have e_name := required_eq e_name
    obtain ⟨version', e0, h⟩ := xbind h
    obtain ⟨e1, e_version⟩ := version_eq hu e0
    subst e1
    cases h
    have a_components : Component.atOpt w s.components = s.components := by rw [Component.atOpt_eq]; exact optMap_id fun y hy => listMap_id fun z hz => (hs.components y hy z hz)
    have n_data : since15 w s.data none = s.data := since15_none hs.data_none
    have a_evidence : s.evidence.map (ComponentEvidence.at w) = s.evidence := optMap_id fun y hy => (hs.evidence y hy)
    have a_licenses : s.licenses.map (Licenses.at w) = s.licenses := optMap_id fun y hy => (hs.licenses y hy)
    have n_modelCard : since15 w s.modelCard none = s.modelCard := since15_none hs.modelCard_none
    have a_pedigree : Pedigree.atOpt w s.pedigree = s.pedigree := by rw [Pedigree.atOpt_eq]; exact optMap_id fun y hy => (hs.pedigree y hy)
    have n_signature : since14 w s.signature none = s.signature := since14_none hs.signature_none
    exact by simp only [Component.at, a_components, n_data, a_evidence, a_licenses, n_modelCard, a_pedigree, n_signature]

theorem Component.finds_n (hu : v.ord ≤ w.ord) : ∀ n, Finds (Component.readXmlN v n) fun x => Component.at w x = x
  | 0 => fun _ _ _ _ _ h => by cases h
  | n + 1 => Component.finds_with hu (Component.finds_n hu n)

theorem Component.finds (hu : v.ord ≤ w.ord) : Finds (Component.readXml v) fun x => Component.at w x = x :=
  Component.finds_n hu ReadLimit.limit

/-- What is known of the local variables of the reader of `Service`. -/
structure Service.Vars.New (v : SpecVersion) (s : Service.Vars) : Prop where
  data : ∀ y, s.data = some y → ServiceDataChoice.at v y = y
  licenses : ∀ y, s.licenses = some y → Licenses.at v y = y
  services : ∀ y, s.services = some y → ∀ z ∈ y, Service.at v z = z
  signature_none : v = .v1_3 → s.signature = none
  trustZone_none : v ≠ .v1_5 → s.trustZone = none

theorem Service.finds_with (hu : v.ord ≤ w.ord) {sub : XElem Service}
    (hsub : Finds sub fun z => Service.at w z = z) :
    Finds (Service.readXmlWith sub v) fun x => Service.at w x = x := by
  unfold Service.readXmlWith
  refine struct_finds (Service.Vars.New w) { data := noneAll, licenses := noneAll, services := noneAll, signature_none := fun _ => rfl, trustZone_none := fun _ => rfl } ?_ ?_
  · unfold Service.armsWith
    exact (armsFindAppend (armsFindAppend (armsFindCons (arm_finds finds_any fun y s h _ => { h with  }) <|
      armsFindCons (arm_finds finds_any fun y s h _ => { h with  }) <|
      armsFindCons (arm_finds finds_any fun y s h _ => { h with  }) <|
      armsFindCons (arm_finds finds_any fun y s h _ => { h with  }) <|
      armsFindCons (arm_finds finds_any fun y s h _ => { h with  }) <|
      armsFindCons (arm_finds finds_any fun y s h _ => { h with  }) <|
      armsFindCons (arm_finds finds_any fun y s h _ => { h with  }) <|
      armsFindCons (arm_finds finds_any fun y s h _ => { h with  }) <|
      armsFindCons (arm_finds (ServiceDataChoice.finds hu) fun y s h hy => { h with data := fun z e => by cases e; exact hy }) <|
      armsFindCons (arm_finds (Licenses.finds hu) fun y s h hy => { h with licenses := fun z e => by cases e; exact hy }) <|
      armsFindCons (arm_finds finds_any fun y s h _ => { h with  }) <|
      armsFindCons (arm_finds finds_any fun y s h _ => { h with  }) <|
      armsFindCons (arm_finds (list_finds hsub) fun y s h hy => { h with services := fun z e => by cases e; exact hy }) <|
      armsFindNil)
      (armsFind14 hu fun hv => armsFindCons (arm_finds finds_any fun y s h _ => { h with signature_none := fun e => absurd e hv }) <|
      armsFindNil))
      (armsFind15 hu fun hv => armsFindCons (arm_finds finds_any fun y s h _ => { h with trustZone_none := fun e => absurd hv e }) <|
      armsFindNil))
  · intro el attrs p s x hp hs h
    obtain ⟨name', e_name, h⟩ := xbind h
    have e_name := required_eq e_name
    cases h
    have a_data : s.data.map (ServiceDataChoice.at w) = s.data := optMap_id fun y hy => (hs.data y hy)
    have a_licenses : s.licenses.map (Licenses.at w) = s.licenses := optMap_id fun y hy => (hs.licenses y hy)
    have a_services : Service.atOpt w s.services = s.services := by rw [Service.atOpt_eq]; exact optMap_id fun y hy => listMap_id fun z hz => (hs.services y hy z hz)
    have n_signature : since14 w s.signature none = s.signature := since14_none hs.signature_none
    have n_trustZone : since15 w s.trustZone none = s.trustZone := since15_none hs.trustZone_none
    exact by simp only [Service.at, a_data, a_licenses, a_services, n_signature, n_trustZone]

theorem Service.finds_n (hu : v.ord ≤ w.ord) : ∀ n, Finds (Service.readXmlN v n) fun x => Service.at w x = x
  | 0 => fun _ _ _ _ _ h => by cases h
  | n + 1 => Service.finds_with hu (Service.finds_n hu n)

theorem Service.finds (hu : v.ord ≤ w.ord) : Finds (Service.readXml v) fun x => Service.at w x = x :=
  Service.finds_n hu ReadLimit.limit

/-- What is known of the local variables of the reader of `Tool`. -/
structure Tool.Vars.New (v : SpecVersion) (s : Tool.Vars) : Prop where
  externalReferences_none : v = .v1_3 → s.externalReferences = none

theorem Tool.finds (hu : v.ord ≤ w.ord) : Finds (Tool.readXml v) fun x => Tool.at w x = x := by
  unfold Tool.readXml
  refine struct_finds (Tool.Vars.New w) { externalReferences_none := fun _ => rfl } ?_ ?_
  · unfold Tool.arms
    exact (armsFindAppend (armsFindCons (arm_finds finds_any fun y s h _ => { h with  }) <|
      armsFindCons (arm_finds finds_any fun y s h _ => { h with  }) <|
      armsFindCons (arm_finds finds_any fun y s h _ => { h with  }) <|
      armsFindCons (arm_finds finds_any fun y s h _ => { h with  }) <|
      armsFindNil)
      (armsFind14 hu fun hv => armsFindCons (arm_finds finds_any fun y s h _ => { h with externalReferences_none := fun e => absurd e hv }) <|
      armsFindNil))
  · intro el attrs p s x hp hs h
    cases h
    have n_externalReferences : since14 w s.externalReferences none = s.externalReferences := since14_none hs.externalReferences_none
    exact by simp only [Tool.at, n_externalReferences]

/-- What is known of the local variables of the reader of `Tools`. -/
structure Tools.Vars.New (v : SpecVersion) (s : Tools.Vars) : Prop where
  tools : ∀ y, s.tools = some y → ∀ z ∈ y, Tool.at v z = z
  components : ∀ y, s.components = some y → ∀ z ∈ y, Component.at v z = z
  services : ∀ y, s.services = some y → ∀ z ∈ y, Service.at v z = z

theorem Tools.finds (hu : v.ord ≤ w.ord) : Finds (Tools.readXml v) fun x => Tools.at w x = x := by
  unfold Tools.readXml
  refine struct_finds (Tools.Vars.New w) { tools := noneAll, components := noneAll, services := noneAll } ?_ ?_
  · unfold Tools.arms
    exact (armsFindAppend (armsFindCons (arm_finds (Tool.finds hu) fun y s h hy =>
        { h with tools := fun z e => by cases e; exact getD_append h.tools hy }) armsFindNil)
      (armsFind15 hu fun hv => armsFindCons (arm_finds (list_finds (Component.finds hu)) fun y s h hy =>
          { h with components := fun z e => by cases e; exact hy }) <|
        armsFindCons (arm_finds (list_finds (Service.finds hu)) fun y s h hy =>
          { h with services := fun z e => by cases e; exact hy }) armsFindNil))
  · intro el attrs p s x hp hs h
    split at h
    · rename_i l e
      split at h
      · cases h
      · cases h
        exact congrArg Tools.list (listMap_id fun z hz => hs.tools _ e z hz)
    · cases v with
      | v1_3 => cases h; rfl
      | v1_4 => cases h; rfl
      | v1_5 =>
        have e5 : w = .v1_5 := by cases w <;> first | rfl | exact absurd hu (by decide)
        subst e5
        cases h
        have e1 : s.services.map (List.map (Service.at .v1_5)) = s.services :=
          optMap_id fun y hy => listMap_id fun z hz => hs.services y hy z hz
        have e2 : s.components.map (List.map (Component.at .v1_5)) = s.components :=
          optMap_id fun y hy => listMap_id fun z hz => hs.components y hy z hz
        simp only [Tools.at, e1, e2]; rfl

/-- What is known of the local variables of the reader of `Metadata`. -/
structure Metadata.Vars.New (v : SpecVersion) (s : Metadata.Vars) : Prop where
  tools : ∀ y, s.tools = some y → Tools.at v y = y
  component : ∀ y, s.component = some y → Component.at v y = y
  licenses : ∀ y, s.licenses = some y → Licenses.at v y = y
  lifecycles_none : v ≠ .v1_5 → s.lifecycles = none

theorem Metadata.finds (hu : v.ord ≤ w.ord) : Finds (Metadata.readXml v) fun x => Metadata.at w x = x := by
  unfold Metadata.readXml
  refine struct_finds (Metadata.Vars.New w) { tools := noneAll, component := noneAll, licenses := noneAll, lifecycles_none := fun _ => rfl } ?_ ?_
  · unfold Metadata.arms
    exact (armsFindAppend (armsFindCons (arm_finds finds_any fun y s h _ => { h with  }) <|
      armsFindCons (arm_finds (Tools.finds hu) fun y s h hy => { h with tools := fun z e => by cases e; exact hy }) <|
      armsFindCons (arm_finds finds_any fun y s h _ => { h with  }) <|
      armsFindCons (arm_finds (Component.finds hu) fun y s h hy => { h with component := fun z e => by cases e; exact hy }) <|
      armsFindCons (arm_finds finds_any fun y s h _ => { h with  }) <|
      armsFindCons (arm_finds finds_any fun y s h _ => { h with  }) <|
      armsFindCons (arm_finds (Licenses.finds hu) fun y s h hy => { h with licenses := fun z e => by cases e; exact hy }) <|
      armsFindCons (arm_finds finds_any fun y s h _ => { h with  }) <|
      armsFindNil)
      (armsFind15 hu fun hv => armsFindCons (arm_finds finds_any fun y s h _ => { h with lifecycles_none := fun e => absurd hv e }) <|
      armsFindNil))
  · intro el attrs p s x hp hs h
    cases h
    have a_component : s.component.map (Component.at w) = s.component := optMap_id fun y hy => (hs.component y hy)
    have a_licenses : s.licenses.map (Licenses.at w) = s.licenses := optMap_id fun y hy => (hs.licenses y hy)
    have n_lifecycles : since15 w s.lifecycles none = s.lifecycles := since15_none hs.lifecycles_none
    have a_tools : s.tools.map (Tools.at w) = s.tools := optMap_id fun y hy => (hs.tools y hy)
    exact by simp only [Metadata.at, a_component, a_licenses, n_lifecycles, a_tools]

/-- What is known of the local variables of the reader of `Vulnerability`. -/
structure Vulnerability.Vars.New (v : SpecVersion) (s : Vulnerability.Vars) : Prop where
  tools : ∀ y, s.tools = some y → Tools.at v y = y
  vulnerabilityAnalysis : ∀ y, s.vulnerabilityAnalysis = some y → VulnerabilityAnalysis.at v y = y
  proofOfConcept_none : v ≠ .v1_5 → s.proofOfConcept = none
  rejected_none : v ≠ .v1_5 → s.rejected = none
  workaround_none : v ≠ .v1_5 → s.workaround = none

theorem Vulnerability.finds (hu : v.ord ≤ w.ord) : Finds (Vulnerability.readXml v) fun x => Vulnerability.at w x = x := by
  unfold Vulnerability.readXml
  refine struct_finds (Vulnerability.Vars.New w) { tools := noneAll, vulnerabilityAnalysis := noneAll, proofOfConcept_none := fun _ => rfl, rejected_none := fun _ => rfl, workaround_none := fun _ => rfl } ?_ ?_
  · unfold Vulnerability.arms
    exact (armsFindAppend (armsFindCons (arm_finds finds_any fun y s h _ => { h with  }) <|
      armsFindCons (arm_finds finds_any fun y s h _ => { h with  }) <|
      armsFindCons (arm_finds finds_any fun y s h _ => { h with  }) <|
      armsFindCons (arm_finds finds_any fun y s h _ => { h with  }) <|
      armsFindCons (arm_finds finds_any fun y s h _ => { h with  }) <|
      armsFindCons (arm_finds finds_any fun y s h _ => { h with  }) <|
      armsFindCons (arm_finds finds_any fun y s h _ => { h with  }) <|
      armsFindCons (arm_finds finds_any fun y s h _ => { h with  }) <|
      armsFindCons (arm_finds finds_any fun y s h _ => { h with  }) <|
      armsFindCons (arm_finds finds_any fun y s h _ => { h with  }) <|
      armsFindCons (arm_finds finds_any fun y s h _ => { h with  }) <|
      armsFindCons (arm_finds finds_any fun y s h _ => { h with  }) <|
      armsFindCons (arm_finds finds_any fun y s h _ => { h with  }) <|
      armsFindCons (arm_finds (Tools.finds hu) fun y s h hy => { h with tools := fun z e => by cases e; exact hy }) <|
      armsFindCons (arm_finds (VulnerabilityAnalysis.finds hu) fun y s h hy => { h with vulnerabilityAnalysis := fun z e => by cases e; exact hy }) <|
      armsFindCons (arm_finds finds_any fun y s h _ => { h with  }) <|
      armsFindCons (arm_finds finds_any fun y s h _ => { h with  }) <|
      armsFindNil)
      (armsFind15 hu fun hv => armsFindCons (arm_finds finds_any fun y s h _ => { h with proofOfConcept_none := fun e => absurd hv e }) <|
      armsFindCons (arm_finds finds_any fun y s h _ => { h with rejected_none := fun e => absurd hv e }) <|
      armsFindCons (arm_finds finds_any fun y s h _ => { h with workaround_none := fun e => absurd hv e }) <|
      armsFindNil))
  · intro el attrs p s x hp hs h
    cases h
    have n_proofOfConcept : since15 w s.proofOfConcept none = s.proofOfConcept := since15_none hs.proofOfConcept_none
    have n_rejected : since15 w s.rejected none = s.rejected := since15_none hs.rejected_none
    have a_tools : s.tools.map (Tools.at w) = s.tools := optMap_id fun y hy => (hs.tools y hy)
    have a_vulnerabilityAnalysis : s.vulnerabilityAnalysis.map (VulnerabilityAnalysis.at w) = s.vulnerabilityAnalysis := optMap_id fun y hy => (hs.vulnerabilityAnalysis y hy)
    have n_workaround : since15 w s.workaround none = s.workaround := since15_none hs.workaround_none
    exact by simp only [Vulnerability.at, n_proofOfConcept, n_rejected, a_tools, a_vulnerabilityAnalysis, n_workaround]

/-- What is known of the local variables of the reader of `Formula`. -/
structure Formula.Vars.New (v : SpecVersion) (s : Formula.Vars) : Prop where
  components : ∀ y, s.components = some y → ∀ z ∈ y, Component.at v z = z
  services : ∀ y, s.services = some y → ∀ z ∈ y, Service.at v z = z

theorem Formula.finds (hu : v.ord ≤ w.ord) : Finds (Formula.readXml v) fun x => Formula.at w x = x := by
  unfold Formula.readXml
  refine struct_finds (Formula.Vars.New w) { components := noneAll, services := noneAll } ?_ ?_
  · unfold Formula.arms
    exact armsFindCons (arm_finds (list_finds (Component.finds hu)) fun y s h hy => { h with components := fun z e => by cases e; exact hy }) <|
      armsFindCons (arm_finds (list_finds (Service.finds hu)) fun y s h hy => { h with services := fun z e => by cases e; exact hy }) <|
      armsFindCons (arm_finds finds_any fun y s h _ => { h with  }) <|
      armsFindCons (arm_finds finds_any fun y s h _ => { h with  }) <|
      armsFindNil
  · intro el attrs p s x hp hs h
    cases h
    have a_components : s.components.map (List.map (Component.at w)) = s.components := optMap_id fun y hy => listMap_id fun z hz => (hs.components y hy z hz)
    have a_services : s.services.map (List.map (Service.at w)) = s.services := optMap_id fun y hy => listMap_id fun z hz => (hs.services y hy z hz)
    exact by simp only [Formula.at, a_components, a_services]

theorem Annotator.finds (hu : v.ord ≤ w.ord) : Finds (Annotator.readXml v) fun x => Annotator.at w x = x := by
  unfold Annotator.readXml
  refine struct_finds (fun o => ∀ x, o = some x → Annotator.at w x = x) nofun ?_ ?_
  · unfold Annotator.arms
    exact armsFindCons (arm_finds finds_any fun y s h _ => fun z e => by cases e; rfl) <|
      armsFindCons (arm_finds finds_any fun y s h _ => fun z e => by cases e; rfl) <|
      armsFindCons (arm_finds (Component.finds hu) fun y s h hy => fun z e => by
        cases e; exact congrArg Annotator.component hy) <|
      armsFindCons (arm_finds (Service.finds hu) fun y s h hy => fun z e => by
        cases e; exact congrArg Annotator.service hy) armsFindNil
  · intro el attrs p s x hp hs h
    exact hs x (required_eq h)

theorem Annotation.finds (hu : v.ord ≤ w.ord) : Finds (Annotation.readXml v) fun x => Annotation.at w x = x := by
  unfold Annotation.readXml
  refine struct_finds (fun s => ∀ x, s.annotator = some x → Annotator.at w x = x) nofun ?_ ?_
  · unfold Annotation.arms
    exact armsFindCons (arm_finds finds_any fun y s h _ => h) <|
      armsFindCons (arm_finds (Annotator.finds hu) fun y s h hy => fun z e => by cases e; exact hy) <|
      armsFindCons (arm_finds finds_any fun y s h _ => h) <|
      armsFindCons (arm_finds finds_any fun y s h _ => h) <|
      armsFindCons (arm_finds finds_any fun y s h _ => h) armsFindNil
  · intro el attrs p s x hp hs h
    obtain ⟨annotator', e1, h⟩ := xbind h
    obtain ⟨timestamp', _, h⟩ := xbind h
    obtain ⟨text', _, h⟩ := xbind h
    cases h
    simp only [Annotation.at, hs _ (required_eq e1)]

/-- What is known of the local variables of the reader of `Bom`. -/
structure Bom.Vars.New (v : SpecVersion) (s : Bom.Vars) : Prop where
  metadata : ∀ y, s.metadata = some y → Metadata.at v y = y
  components : ∀ y, s.components = some y → ∀ z ∈ y, Component.at v z = z
  services : ∀ y, s.services = some y → ∀ z ∈ y, Service.at v z = z
  compositions : ∀ y, s.compositions = some y → ∀ z ∈ y, Composition.at v z = z
  properties_none : v ≠ .v1_5 → s.properties = none
  vulnerabilities : ∀ y, s.vulnerabilities = some y → ∀ z ∈ y, Vulnerability.at v z = z
  vulnerabilities_none : v = .v1_3 → s.vulnerabilities = none
  signature_none : v = .v1_3 → s.signature = none
  annotations : ∀ y, s.annotations = some y → ∀ z ∈ y, Annotation.at v z = z
  annotations_none : v ≠ .v1_5 → s.annotations = none
  formulation : ∀ y, s.formulation = some y → ∀ z ∈ y, Formula.at v z = z
  formulation_none : v ≠ .v1_5 → s.formulation = none

theorem Bom.finds_arms (hu : v.ord ≤ w.ord) : ArmsFind (Bom.Vars.New w) (Bom.arms v) := by
  unfold Bom.arms
  exact (armsFindAppend (armsFindAppend
    (armsFindCons (arm_finds (Metadata.finds hu) fun y s h hy => { h with metadata := fun z e => by cases e; exact hy }) <|
     armsFindCons (arm_finds (list_finds (Component.finds hu)) fun y s h hy => { h with components := fun z e => by cases e; exact hy }) <|
     armsFindCons (arm_finds (list_finds (Service.finds hu)) fun y s h hy => { h with services := fun z e => by cases e; exact hy }) <|
     armsFindCons (arm_finds finds_any fun y s h _ => { h with }) <|
     armsFindCons (arm_finds finds_any fun y s h _ => { h with }) <|
     armsFindCons (arm_finds (list_finds (Composition.finds hu)) fun y s h hy => { h with compositions := fun z e => by cases e; exact hy }) <|
     armsFindNil)
    (armsFind14 hu fun hv =>
     armsFindCons (arm_finds (list_finds (Vulnerability.finds hu)) fun y s h hy => { h with vulnerabilities := fun z e => by cases e; exact hy, vulnerabilities_none := fun e => absurd e hv }) <|
     armsFindCons (arm_finds finds_any fun y s h _ => { h with signature_none := fun e => absurd e hv }) <|
     armsFindNil))
    (armsFind15 hu fun hv =>
     armsFindCons (arm_finds finds_any fun y s h _ => { h with properties_none := fun e => absurd hv e }) <|
     armsFindCons (arm_finds (list_finds (Annotation.finds hu)) fun y s h hy => { h with annotations := fun z e => by cases e; exact hy, annotations_none := fun e => absurd hv e }) <|
     armsFindCons (arm_finds (list_finds (Formula.finds hu)) fun y s h hy => { h with formulation := fun z e => by cases e; exact hy, formulation_none := fun e => absurd hv e }) <|
     armsFindNil))

theorem Bom.finds_document (hu : v.ord ≤ w.ord) {evs : List XEvent} {b : Bom}
    (h : Bom.readDocument v evs = .ok b) : Bom.at w b = { b with specVersion := w } := by
  unfold Bom.readDocument at h
  split at h
  · rename_i n attrs ns l
    split at h
    · split at h
      · obtain ⟨version, hn, h⟩ := xbind h
        obtain ⟨⟨s, l'⟩, hl, h⟩ := xbind h
        have hs := readLoop_finds (Bom.finds_arms hu) (st := {}) { metadata := noneAll, components := noneAll, services := noneAll, compositions := noneAll, properties_none := fun _ => rfl, vulnerabilities := noneAll, vulnerabilities_none := fun _ => rfl, signature_none := fun _ => rfl, annotations := noneAll, annotations_none := fun _ => rfl, formulation := noneAll, formulation_none := fun _ => rfl } hl
        dsimp only at h
        split at h
        · cases h
          have a_metadata : s.metadata.map (Metadata.at w) = s.metadata := optMap_id fun y hy => (hs.metadata y hy)
          have a_components : s.components.map (List.map (Component.at w)) = s.components := optMap_id fun y hy => listMap_id fun z hz => (hs.components y hy z hz)
          have a_services : s.services.map (List.map (Service.at w)) = s.services := optMap_id fun y hy => listMap_id fun z hz => (hs.services y hy z hz)
          have a_compositions : s.compositions.map (List.map (Composition.at w)) = s.compositions := optMap_id fun y hy => listMap_id fun z hz => (hs.compositions y hy z hz)
          have n_properties : since15 w s.properties none = s.properties := since15_none hs.properties_none
          have a_vulnerabilities : s.vulnerabilities.map (List.map (Vulnerability.at w)) = s.vulnerabilities := optMap_id fun y hy => listMap_id fun z hz => (hs.vulnerabilities y hy z hz)
          have n_vulnerabilities : since14 w s.vulnerabilities none = s.vulnerabilities := since14_none hs.vulnerabilities_none
          have n_signature : since14 w s.signature none = s.signature := since14_none hs.signature_none
          have a_annotations : s.annotations.map (List.map (Annotation.at w)) = s.annotations := optMap_id fun y hy => listMap_id fun z hz => (hs.annotations y hy z hz)
          have n_annotations : since15 w s.annotations none = s.annotations := since15_none hs.annotations_none
          have n_formulation : since15 w s.formulation none = s.formulation := since15_none hs.formulation_none
          have a_formulation : s.formulation.map (List.map (Formula.at w)) = s.formulation := optMap_id fun y hy => listMap_id fun z hz => (hs.formulation y hy z hz)
          simp only [Bom.at, a_metadata, a_components, a_services, a_compositions, n_properties, a_vulnerabilities, n_vulnerabilities, n_signature, a_annotations, n_annotations, a_formulation, n_formulation]
        · cases h
        · cases h
      · cases h
    · cases h
  all_goals cases h

end Cdx
