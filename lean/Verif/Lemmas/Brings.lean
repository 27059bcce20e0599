import Verif.Lemmas.Settled
import Verif.Lemmas.Clean

set_option linter.unusedSectionVars false
set_option linter.unusedSimpArgs false
set_option linter.unusedVariables false

/-!
# Whatever is read from JSON in a version has only fields of that version

Unlike `Yields`, this holds for all values.
-/

namespace Cdx

section
variable {α β : Type}

/-- What a reader gives. -/
def Brings (f : Json → Except String α) (P : α → Prop) : Prop := ∀ j x, f j = .ok x → P x

theorem req_brings {o : List (String × Json)} {k : String} {f : Json → Except String α}
    {P : α → Prop} {x : α} (hf : Brings f P) (h : Json.req o k f = .ok x) : P x := by
  obtain ⟨j, _, h⟩ := req_eq h
  exact hf j x h

theorem opt_brings {o : List (String × Json)} {k : String} {f : Json → Except String α}
    {P : α → Prop} {x : Option α} (hf : Brings f P)
    (h : Json.opt o k f = .ok x) : ∀ y, x = some y → P y := by
  intro y hy
  obtain ⟨j, _, h⟩ := opt_eq h hy
  exact hf j y h

theorem opt14_brings {v : SpecVersion} {o : List (String × Json)} {k : String} {f : Json → Except String α}
    {P : α → Prop} {x : Option α} (hf : Brings f P)
    (h : since14 v (Json.opt o k f) (.ok none) = .ok x) : ∀ y, x = some y → P y := by
  cases v
  · cases h; intro y hy; cases hy
  · exact opt_brings hf h
  · exact opt_brings hf h

theorem opt15_brings {v : SpecVersion} {o : List (String × Json)} {k : String} {f : Json → Except String α}
    {P : α → Prop} {x : Option α} (hf : Brings f P)
    (h : since15 v (Json.opt o k f) (.ok none) = .ok x) : ∀ y, x = some y → P y := by
  cases v
  · cases h; intro y hy; cases hy
  · cases h; intro y hy; cases hy
  · exact opt_brings hf h

theorem array_brings {f : Json → Except String α} {P : α → Prop} (hf : Brings f P) :
    Brings (Json.array f) fun l => ∀ z ∈ l, P z := by
  intro j x h
  cases j with
  | arr l =>
    replace h : l.mapM f = .ok x := h
    induction l generalizing x with
    | nil => cases h; intro z hz; cases hz
    | cons i l ih =>
      rw [List.mapM_cons] at h
      obtain ⟨a, ha, h⟩ := bindEq h
      obtain ⟨as, has, h⟩ := bindEq h
      cases h
      intro z hz
      cases hz with
      | head => exact hf i _ ha
      | tail _ hz => exact ih _ has z hz
  | _ => cases h

theorem tagged_brings {vs : List (String × (Json → Except String α))} {P : α → Prop}
    (h : ∀ p ∈ vs, Brings p.2 P) : Brings (Json.tagged vs) P := by
  intro j x hx
  unfold Json.tagged at hx
  split at hx
  · rename_i k i
    split at hx
    · rename_i f hf
      obtain ⟨p, hp, rfl⟩ := lookup_mem' hf
      exact h p hp i x hx
    · cases hx
  · cases hx

theorem map_brings {f : Json → Except String α} {g : α → β} {Q : α → Prop} {P : β → Prop}
    (hf : Brings f Q) (hg : ∀ y, Q y → P (g y)) : Brings (fun j => (f j).map g) P := by
  intro j x h
  obtain ⟨y, hy, rfl⟩ := mapEq h
  exact hg y (hf j y hy)

theorem any_brings (f : Json → Except String α) : Brings f fun _ => True := fun _ _ _ => trivial

end

variable [F32Format] [ReadLimit] {v w : SpecVersion}

theorem License.brings (hu : v.ord ≤ w.ord) : Brings (License.ofJson v) fun x => License.at w x = x := by
  intro j x h
  unfold License.ofJson at h
  obtain ⟨o, ho, k⟩ := bindEq h
  obtain rfl := fields_eq ho
  obtain ⟨a0, h0, k⟩ := bindEq k
  obtain ⟨a1, h1, k⟩ := bindEq k
  obtain ⟨a2, h2, k⟩ := bindEq k
  obtain ⟨a3, h3, k⟩ := bindEq k
  obtain ⟨a4, h4, k⟩ := bindEq k
  obtain ⟨a5, h5, k⟩ := bindEq k
  cases k
  have e0 := gate15_at hu h0
  have e4 := gate15_at hu h4
  have e5 := gate15_at hu h5
  simp only [License.at, e0, e4, e5]

theorem LicenseChoice.brings (hu : v.ord ≤ w.ord) :
    Brings (LicenseChoice.ofJson v) fun x => LicenseChoice.at w x = x := by
  intro j x h
  unfold LicenseChoice.ofJson at h
  split at h
  · rename_i y hy
    cases h
    refine tagged_brings (P := fun x => LicenseChoice.at w x = x) (fun p hp => ?_) j _ hy
    rcases List.mem_singleton.mp hp with rfl
    exact map_brings (License.brings hu) fun y hy => congrArg LicenseChoice.license hy
  · obtain ⟨y, _, rfl⟩ := mapEq h
    rfl

theorem Licenses.brings (hu : v.ord ≤ w.ord) :
    Brings (Licenses.ofJson v) fun x => Licenses.at w x = x := by
  intro j x h
  exact listMap_id fun z hz => array_brings (LicenseChoice.brings hu) j x h z hz

theorem ComponentEvidence.brings (hu : v.ord ≤ w.ord) : Brings (ComponentEvidence.ofJson v) fun x => ComponentEvidence.at w x = x := by
  intro j x h
  unfold ComponentEvidence.ofJson at h
  obtain ⟨o, ho, k⟩ := bindEq h
  obtain rfl := fields_eq ho
  obtain ⟨a0, h0, k⟩ := bindEq k
  obtain ⟨a1, h1, k⟩ := bindEq k
  obtain ⟨a2, h2, k⟩ := bindEq k
  obtain ⟨a3, h3, k⟩ := bindEq k
  obtain ⟨a4, h4, k⟩ := bindEq k
  cases k
  have g0 := opt_brings (Licenses.brings hu) h0
  have e0 : a0.map (Licenses.at w) = a0 := optMap_id fun y hy => (g0 y hy)
  have e2 := gate15_at hu h2
  have e3 := gate15_at hu h3
  have e4 := gate15_at hu h4
  simp only [ComponentEvidence.at, e0, e2, e3, e4]

theorem Pedigree.bringsWith (hu : v.ord ≤ w.ord) {sub : Json → Except String Component} 
    (hs : Brings sub fun y => Component.at w y = y) :
    Brings (Pedigree.ofJsonWith sub v) fun x => Pedigree.at w x = x := by
  intro j x h
  unfold Pedigree.ofJsonWith at h
  obtain ⟨o, ho, k⟩ := bindEq h
  obtain rfl := fields_eq ho
  obtain ⟨a0, h0, k⟩ := bindEq k
  obtain ⟨a1, h1, k⟩ := bindEq k
  obtain ⟨a2, h2, k⟩ := bindEq k
  obtain ⟨a3, h3, k⟩ := bindEq k
  obtain ⟨a4, h4, k⟩ := bindEq k
  obtain ⟨a5, h5, k⟩ := bindEq k
  cases k
  have g0 := opt_brings (array_brings hs) h0
  have e0 : a0.map (List.map (Component.at w)) = a0 := optMap_id fun y hy => listMap_id fun z hz => (g0 y hy z hz)
  have g1 := opt_brings (array_brings hs) h1
  have e1 : a1.map (List.map (Component.at w)) = a1 := optMap_id fun y hy => listMap_id fun z hz => (g1 y hy z hz)
  have g2 := opt_brings (array_brings hs) h2
  have e2 : a2.map (List.map (Component.at w)) = a2 := optMap_id fun y hy => listMap_id fun z hz => (g2 y hy z hz)
  simp only [Pedigree.at_eq, e0, e1, e2]

theorem Component.bringsWith (hu : v.ord ≤ w.ord) {sub : Json → Except String Component} 
    (hs : Brings sub fun y => Component.at w y = y) :
    Brings (Component.ofJsonWith sub v) fun x => Component.at w x = x := by
  intro j x h
  unfold Component.ofJsonWith at h
  obtain ⟨o, ho, k⟩ := bindEq h
  obtain rfl := fields_eq ho
  obtain ⟨a0, h0, k⟩ := bindEq k
  obtain ⟨a1, h1, k⟩ := bindEq k
  obtain ⟨a2, h2, k⟩ := bindEq k
  obtain ⟨a3, h3, k⟩ := bindEq k
  obtain ⟨a4, h4, k⟩ := bindEq k
  obtain ⟨a5, h5, k⟩ := bindEq k
  obtain ⟨a6, h6, k⟩ := bindEq k
  obtain ⟨a7, h7, k⟩ := bindEq k
  obtain ⟨a8, h8, k⟩ := bindEq k
  obtain ⟨a9, h9, k⟩ := bindEq k
  obtain ⟨a10, h10, k⟩ := bindEq k
  obtain ⟨a11, h11, k⟩ := bindEq k
  obtain ⟨a12, h12, k⟩ := bindEq k
  obtain ⟨a13, h13, k⟩ := bindEq k
  obtain ⟨a14, h14, k⟩ := bindEq k
  obtain ⟨a15, h15, k⟩ := bindEq k
  obtain ⟨a16, h16, k⟩ := bindEq k
  obtain ⟨a17, h17, k⟩ := bindEq k
  obtain ⟨a18, h18, k⟩ := bindEq k
  obtain ⟨a19, h19, k⟩ := bindEq k
  obtain ⟨a20, h20, k⟩ := bindEq k
  obtain ⟨a21, h21, k⟩ := bindEq k
  obtain ⟨a22, h22, k⟩ := bindEq k
  obtain ⟨a23, h23, k⟩ := bindEq k
  obtain ⟨a24, h24, k⟩ := bindEq k
  obtain ⟨a25, h25, k⟩ := bindEq k
  cases k
  have g12 := opt_brings (Licenses.brings hu) h12
  have e12 : a12.map (Licenses.at w) = a12 := optMap_id fun y hy => (g12 y hy)
  have g18 := opt_brings (Pedigree.bringsWith hu hs) h18
  have e18 : a18.map (Pedigree.at w) = a18 := optMap_id fun y hy => (g18 y hy)
  have g21 := opt_brings (array_brings hs) h21
  have e21 : a21.map (List.map (Component.at w)) = a21 := optMap_id fun y hy => listMap_id fun z hz => (g21 y hy z hz)
  have g22 := opt_brings (ComponentEvidence.brings hu) h22
  have e22 : a22.map (ComponentEvidence.at w) = a22 := optMap_id fun y hy => (g22 y hy)
  have e23 := gate14_at hu h23
  have e24 := gate15_at hu h24
  have e25 := gate15_at hu h25
  simp only [Component.at_eq, e12, e18, e21, e22, e23, e24, e25]

theorem Component.bringsN (hu : v.ord ≤ w.ord) : ∀ n, Brings (Component.ofJsonN v n)
    fun x => Component.at w x = x
  | 0 => fun _ _ h => nomatch h
  | n + 1 => Component.bringsWith hu (Component.bringsN hu n)

theorem Component.brings (hu : v.ord ≤ w.ord) : Brings (Component.ofJson v) fun x => Component.at w x = x :=
  Component.bringsN hu ReadLimit.limit

theorem ServiceDataChoice.brings (hu : v.ord ≤ w.ord) :
    Brings (ServiceDataChoice.ofJson v) fun x => ServiceDataChoice.at w x = x := by
  intro j x h
  cases x with
  | serviceData l => exact absurd h ServiceDataChoice.not_serviceData
  | classification l => rfl

theorem Service.bringsWith (hu : v.ord ≤ w.ord) {sub : Json → Except String Service} 
    (hs : Brings sub fun y => Service.at w y = y) :
    Brings (Service.ofJsonWith sub v) fun x => Service.at w x = x := by
  intro j x h
  unfold Service.ofJsonWith at h
  obtain ⟨o, ho, k⟩ := bindEq h
  obtain rfl := fields_eq ho
  obtain ⟨a0, h0, k⟩ := bindEq k
  obtain ⟨a1, h1, k⟩ := bindEq k
  obtain ⟨a2, h2, k⟩ := bindEq k
  obtain ⟨a3, h3, k⟩ := bindEq k
  obtain ⟨a4, h4, k⟩ := bindEq k
  obtain ⟨a5, h5, k⟩ := bindEq k
  obtain ⟨a6, h6, k⟩ := bindEq k
  obtain ⟨a7, h7, k⟩ := bindEq k
  obtain ⟨a8, h8, k⟩ := bindEq k
  obtain ⟨a9, h9, k⟩ := bindEq k
  obtain ⟨a10, h10, k⟩ := bindEq k
  obtain ⟨a11, h11, k⟩ := bindEq k
  obtain ⟨a12, h12, k⟩ := bindEq k
  obtain ⟨a13, h13, k⟩ := bindEq k
  obtain ⟨a14, h14, k⟩ := bindEq k
  obtain ⟨a15, h15, k⟩ := bindEq k
  cases k
  have g9 := opt_brings (ServiceDataChoice.brings hu) h9
  have e9 : a9.map (ServiceDataChoice.at w) = a9 := optMap_id fun y hy => (g9 y hy)
  have g10 := opt_brings (Licenses.brings hu) h10
  have e10 : a10.map (Licenses.at w) = a10 := optMap_id fun y hy => (g10 y hy)
  have g13 := opt_brings (array_brings hs) h13
  have e13 : a13.map (List.map (Service.at w)) = a13 := optMap_id fun y hy => listMap_id fun z hz => (g13 y hy z hz)
  have e14 := gate14_at hu h14
  have e15 := gate15_at hu h15
  simp only [Service.at_eq, e9, e10, e13, e14, e15]

theorem Service.bringsN (hu : v.ord ≤ w.ord) : ∀ n, Brings (Service.ofJsonN v n)
    fun x => Service.at w x = x
  | 0 => fun _ _ h => nomatch h
  | n + 1 => Service.bringsWith hu (Service.bringsN hu n)

theorem Service.brings (hu : v.ord ≤ w.ord) : Brings (Service.ofJson v) fun x => Service.at w x = x :=
  Service.bringsN hu ReadLimit.limit

theorem Annotator.brings (hu : v.ord ≤ w.ord) :
    Brings (Annotator.ofJson v) fun x => Annotator.at w x = x := by
  refine tagged_brings fun p hp => ?_
  simp only [List.mem_cons, List.not_mem_nil, or_false] at hp
  rcases hp with rfl | rfl | rfl | rfl
  · exact map_brings (any_brings _) fun y _ => rfl
  · exact map_brings (any_brings _) fun y _ => rfl
  · exact map_brings (Component.brings hu) fun y hy => congrArg Annotator.component hy
  · exact map_brings (Service.brings hu) fun y hy => congrArg Annotator.service hy

theorem Annotation.brings (hu : v.ord ≤ w.ord) : Brings (Annotation.ofJson v) fun x => Annotation.at w x = x := by
  intro j x h
  unfold Annotation.ofJson at h
  obtain ⟨o, ho, k⟩ := bindEq h
  obtain rfl := fields_eq ho
  obtain ⟨a0, h0, k⟩ := bindEq k
  obtain ⟨a1, h1, k⟩ := bindEq k
  obtain ⟨a2, h2, k⟩ := bindEq k
  obtain ⟨a3, h3, k⟩ := bindEq k
  obtain ⟨a4, h4, k⟩ := bindEq k
  obtain ⟨a5, h5, k⟩ := bindEq k
  cases k
  have g2 := req_brings (Annotator.brings hu) h2
  have e2 := g2
  simp only [Annotation.at, e2]

theorem Composition.brings (hu : v.ord ≤ w.ord) : Brings (Composition.ofJson v) fun x => Composition.at w x = x := by
  intro j x h
  unfold Composition.ofJson at h
  obtain ⟨o, ho, k⟩ := bindEq h
  obtain rfl := fields_eq ho
  obtain ⟨a0, h0, k⟩ := bindEq k
  obtain ⟨a1, h1, k⟩ := bindEq k
  obtain ⟨a2, h2, k⟩ := bindEq k
  obtain ⟨a3, h3, k⟩ := bindEq k
  obtain ⟨a4, h4, k⟩ := bindEq k
  obtain ⟨a5, h5, k⟩ := bindEq k
  cases k
  have e0 := gate15_at hu h0
  have e4 := gate15_at hu h4
  have e5 := gate14_at hu h5
  simp only [Composition.at, e0, e4, e5]

theorem Formula.brings (hu : v.ord ≤ w.ord) : Brings (Formula.ofJson v) fun x => Formula.at w x = x := by
  intro j x h
  unfold Formula.ofJson at h
  obtain ⟨o, ho, k⟩ := bindEq h
  obtain rfl := fields_eq ho
  obtain ⟨a0, h0, k⟩ := bindEq k
  obtain ⟨a1, h1, k⟩ := bindEq k
  obtain ⟨a2, h2, k⟩ := bindEq k
  obtain ⟨a3, h3, k⟩ := bindEq k
  obtain ⟨a4, h4, k⟩ := bindEq k
  cases k
  have g1 := opt_brings (array_brings (Component.brings hu)) h1
  have e1 : a1.map (List.map (Component.at w)) = a1 := optMap_id fun y hy => listMap_id fun z hz => (g1 y hy z hz)
  have g2 := opt_brings (array_brings (Service.brings hu)) h2
  have e2 : a2.map (List.map (Service.at w)) = a2 := optMap_id fun y hy => listMap_id fun z hz => (g2 y hy z hz)
  simp only [Formula.at, e1, e2]

theorem Tool.brings (hu : v.ord ≤ w.ord) : Brings (Tool.ofJson v) fun x => Tool.at w x = x := by
  intro j x h
  unfold Tool.ofJson at h
  obtain ⟨o, ho, k⟩ := bindEq h
  obtain rfl := fields_eq ho
  obtain ⟨a0, h0, k⟩ := bindEq k
  obtain ⟨a1, h1, k⟩ := bindEq k
  obtain ⟨a2, h2, k⟩ := bindEq k
  obtain ⟨a3, h3, k⟩ := bindEq k
  obtain ⟨a4, h4, k⟩ := bindEq k
  cases k
  have e4 := gate14_at hu h4
  simp only [Tool.at, e4]

theorem Tools.brings (hu : v.ord ≤ w.ord) : Brings (Tools.ofJson v) fun x => Tools.at w x = x := by
  intro j x h
  unfold Tools.ofJson at h
  split at h
  · rename_i l hl
    cases h
    have g := array_brings (Tool.brings hu) j l hl
    exact congrArg Tools.list (listMap_id fun z hz => g z hz)
  · cases v
    · cases h
    · cases h
    · obtain rfl : w = .v1_5 := by cases w <;> first | rfl | exact absurd hu (by decide)
      replace h : Tools.objectOfJson .v1_5 j = .ok x := h
      unfold Tools.objectOfJson at h
      obtain ⟨o, ho, k⟩ := bindEq h
      obtain rfl := fields_eq ho
      obtain ⟨s, hs, k⟩ := bindEq k
      obtain ⟨c, hc, k⟩ := bindEq k
      cases k
      have gs := opt_brings (array_brings (Service.brings hu)) hs
      have gc := opt_brings (array_brings (Component.brings hu)) hc
      have es : s.map (List.map (Service.at .v1_5)) = s :=
        optMap_id fun l hl => listMap_id fun z hz => gs l hl z hz
      have ec : c.map (List.map (Component.at .v1_5)) = c :=
        optMap_id fun l hl => listMap_id fun z hz => gc l hl z hz
      simp only [Tools.at, es, ec, since15]

theorem Metadata.brings (hu : v.ord ≤ w.ord) : Brings (Metadata.ofJson v) fun x => Metadata.at w x = x := by
  intro j x h
  unfold Metadata.ofJson at h
  obtain ⟨o, ho, k⟩ := bindEq h
  obtain rfl := fields_eq ho
  obtain ⟨a0, h0, k⟩ := bindEq k
  obtain ⟨a1, h1, k⟩ := bindEq k
  obtain ⟨a2, h2, k⟩ := bindEq k
  obtain ⟨a3, h3, k⟩ := bindEq k
  obtain ⟨a4, h4, k⟩ := bindEq k
  obtain ⟨a5, h5, k⟩ := bindEq k
  obtain ⟨a6, h6, k⟩ := bindEq k
  obtain ⟨a7, h7, k⟩ := bindEq k
  obtain ⟨a8, h8, k⟩ := bindEq k
  cases k
  have g1 := opt_brings (Tools.brings hu) h1
  have e1 : a1.map (Tools.at w) = a1 := optMap_id fun y hy => (g1 y hy)
  have g3 := opt_brings (Component.brings hu) h3
  have e3 : a3.map (Component.at w) = a3 := optMap_id fun y hy => (g3 y hy)
  have g6 := opt_brings (Licenses.brings hu) h6
  have e6 : a6.map (Licenses.at w) = a6 := optMap_id fun y hy => (g6 y hy)
  have e8 := gate15_at hu h8
  simp only [Metadata.at, e1, e3, e6, e8]

theorem VulnerabilityAnalysis.brings (hu : v.ord ≤ w.ord) : Brings (VulnerabilityAnalysis.ofJson v) fun x => VulnerabilityAnalysis.at w x = x := by
  intro j x h
  unfold VulnerabilityAnalysis.ofJson at h
  obtain ⟨o, ho, k⟩ := bindEq h
  obtain rfl := fields_eq ho
  obtain ⟨a0, h0, k⟩ := bindEq k
  obtain ⟨a1, h1, k⟩ := bindEq k
  obtain ⟨a2, h2, k⟩ := bindEq k
  obtain ⟨a3, h3, k⟩ := bindEq k
  obtain ⟨a4, h4, k⟩ := bindEq k
  obtain ⟨a5, h5, k⟩ := bindEq k
  cases k
  have e4 := gate15_at hu h4
  have e5 := gate15_at hu h5
  simp only [VulnerabilityAnalysis.at, e4, e5]

theorem Vulnerability.brings (hu : v.ord ≤ w.ord) : Brings (Vulnerability.ofJson v) fun x => Vulnerability.at w x = x := by
  intro j x h
  unfold Vulnerability.ofJson at h
  obtain ⟨o, ho, k⟩ := bindEq h
  obtain rfl := fields_eq ho
  obtain ⟨a0, h0, k⟩ := bindEq k
  obtain ⟨a1, h1, k⟩ := bindEq k
  obtain ⟨a2, h2, k⟩ := bindEq k
  obtain ⟨a3, h3, k⟩ := bindEq k
  obtain ⟨a4, h4, k⟩ := bindEq k
  obtain ⟨a5, h5, k⟩ := bindEq k
  obtain ⟨a6, h6, k⟩ := bindEq k
  obtain ⟨a7, h7, k⟩ := bindEq k
  obtain ⟨a8, h8, k⟩ := bindEq k
  obtain ⟨a9, h9, k⟩ := bindEq k
  obtain ⟨a10, h10, k⟩ := bindEq k
  obtain ⟨a11, h11, k⟩ := bindEq k
  obtain ⟨a12, h12, k⟩ := bindEq k
  obtain ⟨a13, h13, k⟩ := bindEq k
  obtain ⟨a14, h14, k⟩ := bindEq k
  obtain ⟨a15, h15, k⟩ := bindEq k
  obtain ⟨a16, h16, k⟩ := bindEq k
  obtain ⟨a17, h17, k⟩ := bindEq k
  obtain ⟨a18, h18, k⟩ := bindEq k
  obtain ⟨a19, h19, k⟩ := bindEq k
  obtain ⟨a20, h20, k⟩ := bindEq k
  cases k
  have e9 := gate15_at hu h9
  have e10 := gate15_at hu h10
  have e15 := gate15_at hu h15
  have g17 := opt_brings (Tools.brings hu) h17
  have e17 : a17.map (Tools.at w) = a17 := optMap_id fun y hy => (g17 y hy)
  have g18 := opt_brings (VulnerabilityAnalysis.brings hu) h18
  have e18 : a18.map (VulnerabilityAnalysis.at w) = a18 := optMap_id fun y hy => (g18 y hy)
  simp only [Vulnerability.at, e9, e10, e15, e17, e18]

theorem Bom.brings (hu : v.ord ≤ w.ord) : Brings (Bom.ofJson v) fun x => Bom.at w x = { x with specVersion := w } := by
  intro j x h
  unfold Bom.ofJson at h
  obtain ⟨o, ho, k⟩ := bindEq h
  obtain rfl := fields_eq ho
  obtain ⟨a0, h0, k⟩ := bindEq k
  obtain ⟨a1, h1, k⟩ := bindEq k
  obtain ⟨a2, h2, k⟩ := bindEq k
  obtain ⟨a3, h3, k⟩ := bindEq k
  obtain ⟨a4, h4, k⟩ := bindEq k
  obtain ⟨a5, h5, k⟩ := bindEq k
  obtain ⟨a6, h6, k⟩ := bindEq k
  obtain ⟨a7, h7, k⟩ := bindEq k
  obtain ⟨a8, h8, k⟩ := bindEq k
  obtain ⟨a9, h9, k⟩ := bindEq k
  obtain ⟨a10, h10, k⟩ := bindEq k
  obtain ⟨a11, h11, k⟩ := bindEq k
  obtain ⟨a12, h12, k⟩ := bindEq k
  obtain ⟨a13, h13, k⟩ := bindEq k
  obtain ⟨a14, h14, k⟩ := bindEq k
  cases k
  have g4 := opt_brings (Metadata.brings hu) h4
  have e4 : a4.map (Metadata.at w) = a4 := optMap_id fun y hy => (g4 y hy)
  have g5 := opt_brings (array_brings (Component.brings hu)) h5
  have e5 : a5.map (List.map (Component.at w)) = a5 := optMap_id fun y hy => listMap_id fun z hz => (g5 y hy z hz)
  have g6 := opt_brings (array_brings (Service.brings hu)) h6
  have e6 : a6.map (List.map (Service.at w)) = a6 := optMap_id fun y hy => listMap_id fun z hz => (g6 y hy z hz)
  have g9 := opt_brings (array_brings (Composition.brings hu)) h9
  have e9 : a9.map (List.map (Composition.at w)) = a9 := optMap_id fun y hy => listMap_id fun z hz => (g9 y hy z hz)
  have g10 := opt14_brings (array_brings (Vulnerability.brings hu)) h10
  have e10 := gate14_at hu h10
  have e10' : a10.map (List.map (Vulnerability.at w)) = a10 := optMap_id fun y hy => listMap_id fun z hz => (g10 y hy z hz)
  have e11 := gate14_at hu h11
  have g12 := opt15_brings (array_brings (Annotation.brings hu)) h12
  have e12 := gate15_at hu h12
  have e12' : a12.map (List.map (Annotation.at w)) = a12 := optMap_id fun y hy => listMap_id fun z hz => (g12 y hy z hz)
  have e13 := gate15_at hu h13
  have g14 := opt15_brings (array_brings (Formula.brings hu)) h14
  have e14 := gate15_at hu h14
  have e14' : a14.map (List.map (Formula.at w)) = a14 := optMap_id fun y hy => listMap_id fun z hz => (g14 y hy z hz)
  simp only [Bom.at, e4, e5, e6, e9, e10, e10', e11, e12, e12', e13, e14, e14']

end Cdx
