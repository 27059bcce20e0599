import Verif.Lemmas.Format.At
import Verif.Spec.Settled

set_option linter.unusedSectionVars false
set_option linter.unusedSimpArgs false
set_option linter.unusedVariables false

/-!
# Lemmas on what is read from JSON

Whatever is read from a settled value can be written and read again, in the version it was read with
and in every later one.
-/

namespace Cdx

/-! ### Enumerations -/

theorem Classification.new_stable (s : String) : Stable Classification.display Classification.new (Classification.new s) := by
  unfold Stable
  fun_cases Classification.new s <;> first | rfl | (simp only [Classification.new, Classification.display]; done)

theorem Scope.new_stable (s : String) : Stable Scope.display Scope.new (Scope.new s) := by
  unfold Stable
  fun_cases Scope.new s <;> first | rfl | (simp only [Scope.new, Scope.display]; done)

theorem Encoding.new_stable (s : String) : Stable Encoding.display Encoding.new (Encoding.new s) := by
  unfold Stable
  fun_cases Encoding.new s <;> first | rfl | (simp only [Encoding.new, Encoding.display]; done)

theorem IssueClassification.new_stable (s : String) : Stable IssueClassification.display IssueClassification.new (IssueClassification.new s) := by
  unfold Stable
  fun_cases IssueClassification.new s <;> first | rfl | (simp only [IssueClassification.new, IssueClassification.display]; done)

theorem PatchClassification.new_stable (s : String) : Stable PatchClassification.display PatchClassification.new (PatchClassification.new s) := by
  unfold Stable
  fun_cases PatchClassification.new s <;> first | rfl | (simp only [PatchClassification.new, PatchClassification.display]; done)

theorem ComponentDataType.new_stable (s : String) : Stable ComponentDataType.display ComponentDataType.new (ComponentDataType.new s) := by
  unfold Stable
  fun_cases ComponentDataType.new s <;> first | rfl | (simp only [ComponentDataType.new, ComponentDataType.display]; done)

theorem AggregateType.new_stable {s : String} (hs : s ≠ "incomplete_first_party_propprietary_only") :
    Stable AggregateType.display AggregateType.new (AggregateType.new s) := by
  unfold Stable
  fun_cases AggregateType.new s <;>
    first | rfl | exact absurd rfl hs | (simp only [AggregateType.new, AggregateType.display]; done)

theorem ExternalReferenceType.new_stable {s : String} (hs : s ≠ "codified-infrastructure") :
    Stable ExternalReferenceType.display ExternalReferenceType.new (ExternalReferenceType.new s) := by
  unfold Stable
  fun_cases ExternalReferenceType.new s <;>
    first | rfl | exact absurd rfl hs | (simp only [ExternalReferenceType.new, ExternalReferenceType.display]; done)

theorem HashAlgorithm.new_stable (s : String) : Stable HashAlgorithm.display HashAlgorithm.new (HashAlgorithm.new s) := by
  unfold Stable
  fun_cases HashAlgorithm.new s <;> first | rfl | (simp only [HashAlgorithm.new, HashAlgorithm.display]; done)

theorem LicenseType.new_stable (s : String) : Stable LicenseType.display LicenseType.new (LicenseType.new s) := by
  unfold Stable
  fun_cases LicenseType.new s <;> first | rfl | (simp only [LicenseType.new, LicenseType.display]; done)

theorem Phase.new_stable (s : String) : Stable Phase.display Phase.new (Phase.new s) := by
  unfold Stable
  fun_cases Phase.new s <;> first | rfl | (simp only [Phase.new, Phase.display]; done)

theorem ApproachType.new_stable (s : String) : Stable ApproachType.display ApproachType.new (ApproachType.new s) := by
  unfold Stable
  fun_cases ApproachType.new s <;> first | rfl | (simp only [ApproachType.new, ApproachType.display]; done)

theorem DataFlowType.new_stable (s : String) : Stable DataFlowType.display DataFlowType.new (DataFlowType.new s) := by
  unfold Stable
  fun_cases DataFlowType.new s <;> first | rfl | (simp only [DataFlowType.new, DataFlowType.display]; done)

theorem ImpactAnalysisState.new_stable (s : String) : Stable ImpactAnalysisState.display ImpactAnalysisState.new (ImpactAnalysisState.new s) := by
  unfold Stable
  fun_cases ImpactAnalysisState.new s <;> first | rfl | (simp only [ImpactAnalysisState.new, ImpactAnalysisState.display]; done)

theorem ImpactAnalysisJustification.new_stable (s : String) : Stable ImpactAnalysisJustification.display ImpactAnalysisJustification.new (ImpactAnalysisJustification.new s) := by
  unfold Stable
  fun_cases ImpactAnalysisJustification.new s <;> first | rfl | (simp only [ImpactAnalysisJustification.new, ImpactAnalysisJustification.display]; done)

theorem ImpactAnalysisResponse.new_stable (s : String) : Stable ImpactAnalysisResponse.display ImpactAnalysisResponse.new (ImpactAnalysisResponse.new s) := by
  unfold Stable
  fun_cases ImpactAnalysisResponse.new s <;> first | rfl | (simp only [ImpactAnalysisResponse.new, ImpactAnalysisResponse.display]; done)

theorem Severity.new_stable (s : String) : Stable Severity.display Severity.new (Severity.new s) := by
  unfold Stable
  fun_cases Severity.new s <;> first | rfl | (simp only [Severity.new, Severity.display]; done)

theorem ScoreMethod.new_stable (s : String) : Stable ScoreMethod.display ScoreMethod.new (ScoreMethod.new s) := by
  unfold Stable
  fun_cases ScoreMethod.new s <;> first | rfl | (simp only [ScoreMethod.new, ScoreMethod.display]; done)

theorem Status.new_stable (s : String) : Stable Status.display Status.new (Status.new s) := by
  unfold Stable
  fun_cases Status.new s <;> first | rfl | (simp only [Status.new, Status.display]; done)

theorem TaskType.new_stable (s : String) : Stable TaskType.display TaskType.new (TaskType.new s) := by
  unfold Stable
  fun_cases TaskType.new s <;> first | rfl | (simp only [TaskType.new, TaskType.display]; done)

theorem OutputType.new_stable (s : String) : Stable OutputType.display OutputType.new (OutputType.new s) := by
  unfold Stable
  fun_cases OutputType.new s <;> first | rfl | (simp only [OutputType.new, OutputType.display]; done)

theorem TriggerType.new_stable (s : String) : Stable TriggerType.display TriggerType.new (TriggerType.new s) := by
  unfold Stable
  fun_cases TriggerType.new s <;> first | rfl | (simp only [TriggerType.new, TriggerType.display]; done)

theorem AccessMode.new_stable (s : String) : Stable AccessMode.display AccessMode.new (AccessMode.new s) := by
  unfold Stable
  fun_cases AccessMode.new s <;> first | rfl | (simp only [AccessMode.new, AccessMode.display]; done)

theorem VolumeMode.new_stable (s : String) : Stable VolumeMode.display VolumeMode.new (VolumeMode.new s) := by
  unfold Stable
  fun_cases VolumeMode.new s <;> first | rfl | (simp only [VolumeMode.new, VolumeMode.display]; done)

theorem IdentityField.new_stable {s : String} (h : s ∈ keptIdentityFields) :
    Stable IdentityField.display IdentityField.new (IdentityField.new s) := by
  simp only [keptIdentityFields, List.mem_cons, List.not_mem_nil, or_false] at h
  rcases h with rfl | rfl | rfl | rfl | rfl | rfl | rfl | rfl <;> rfl

theorem RefUri.ofUrl_stable (s : String) : Stable RefUri.display RefUri.ofUrl (RefUri.ofUrl s) := by
  unfold Stable RefUri.ofUrl
  split
  · rename_i h
    simp only [RefUri.display, h, if_true]
  · rename_i h
    simp only [RefUri.display, h, if_false]
    rfl

/-! ### Members and items -/

variable [F32Format]

/-- What a reader gives for settled values. -/
def Yields {α : Type} (f : Json → Except String α) (P : α → Prop) : Prop :=
  ∀ j x, j.Settled → f j = .ok x → P x

omit [F32Format] in
theorem bindEq {α β : Type} {m : Except String α} {f : α → Except String β} {x : β}
    (h : (m >>= f) = .ok x) : ∃ a, m = .ok a ∧ f a = .ok x := by
  cases m with
  | error e => cases h
  | ok a => exact ⟨a, rfl, h⟩

omit [F32Format] in
theorem mapEq {α β : Type} {m : Except String α} {f : α → β} {x : β}
    (h : m.map f = .ok x) : ∃ a, m = .ok a ∧ f a = x := by
  cases m with
  | error e => cases h
  | ok a => cases h; exact ⟨a, rfl, rfl⟩

omit [F32Format] in
theorem fields_eq {j : Json} {o : List (String × Json)} (h : j.fields = .ok o) : j = .obj o := by
  cases j <;> cases h
  rfl

theorem settled_lookup {k : String} {j : Json} {o : List (String × Json)} (ho : (Json.obj o).Settled)
    (h : Json.get o k = .ok (some j)) : Json.Kept k j ∧ j.Settled := by
  cases ho with
  | obj hk hs => exact ⟨hk _ (Json.get_mem h), hs _ (Json.get_mem h)⟩

omit [F32Format] in
theorem req_eq {α : Type} {o : List (String × Json)} {k : String} {f : Json → Except String α} {x : α}
    (h : Json.req o k f = .ok x) : ∃ j, Json.get o k = .ok (some j) ∧ f j = .ok x := by
  unfold Json.req at h
  split at h
  · rename_i j hj
    exact ⟨j, hj, h⟩
  · cases h
  · cases h

omit [F32Format] in
theorem opt_eq {α : Type} {o : List (String × Json)} {k : String} {f : Json → Except String α}
    {x : Option α} (h : Json.opt o k f = .ok x) {y : α} (hy : x = some y) :
    ∃ j, Json.get o k = .ok (some j) ∧ f j = .ok y := by
  unfold Json.opt at h
  subst hy
  split at h
  · cases h
  · cases h
  · rename_i j _ hj
    obtain ⟨a, ha, e⟩ := mapEq h
    cases e
    exact ⟨j, hj, ha⟩
  · cases h

theorem req_yields {α : Type} {o : List (String × Json)} {k : String} {f : Json → Except String α}
    {P : α → Prop} {x : α} (ho : (Json.obj o).Settled) (hf : Yields f P)
    (h : Json.req o k f = .ok x) : P x := by
  obtain ⟨j, hj, h⟩ := req_eq h
  exact hf j x (settled_lookup ho hj).2 h

theorem opt_yields {α : Type} {o : List (String × Json)} {k : String} {f : Json → Except String α}
    {P : α → Prop} {x : Option α} (ho : (Json.obj o).Settled) (hf : Yields f P)
    (h : Json.opt o k f = .ok x) : ∀ y, x = some y → P y := by
  intro y hy
  obtain ⟨j, hj, h⟩ := opt_eq h hy
  exact hf j y (settled_lookup ho hj).2 h

theorem opt14_yields {v : SpecVersion} {α : Type} {o : List (String × Json)} {k : String} {f : Json → Except String α}
    {P : α → Prop} {x : Option α} (ho : (Json.obj o).Settled) (hf : Yields f P)
    (h : since14 v (Json.opt o k f) (.ok none) = .ok x) : ∀ y, x = some y → P y := by
  cases v
  · cases h; intro y hy; cases hy
  · exact opt_yields ho hf h
  · exact opt_yields ho hf h

theorem opt15_yields {v : SpecVersion} {α : Type} {o : List (String × Json)} {k : String} {f : Json → Except String α}
    {P : α → Prop} {x : Option α} (ho : (Json.obj o).Settled) (hf : Yields f P)
    (h : since15 v (Json.opt o k f) (.ok none) = .ok x) : ∀ y, x = some y → P y := by
  cases v
  · cases h; intro y hy; cases hy
  · cases h; intro y hy; cases hy
  · exact opt_yields ho hf h

omit [F32Format] in
theorem gate14_at {v w : SpecVersion} {α : Type} {m : Except String (Option α)} {x : Option α}
    (hu : v.ord ≤ w.ord) (h : since14 v m (.ok none) = .ok x) : since14 w x none = x := by
  cases v <;> cases w <;> first | rfl | (cases h; rfl) | exact absurd hu (by decide)

omit [F32Format] in
theorem gate15_at {v w : SpecVersion} {α : Type} {m : Except String (Option α)} {x : Option α}
    (hu : v.ord ≤ w.ord) (h : since15 v m (.ok none) = .ok x) : since15 w x none = x := by
  cases v <;> cases w <;> first | rfl | (cases h; rfl) | exact absurd hu (by decide)

theorem array_yields {α : Type} {f : Json → Except String α} {P : α → Prop} (hf : Yields f P) :
    Yields (Json.array f) fun l => ∀ z ∈ l, P z := by
  intro j x hj h
  cases hj with
  | arr hl =>
    rename_i l
    replace h : l.mapM f = .ok x := h
    induction l generalizing x with
    | nil => cases h; intro z hz; cases hz
    | cons i l ih =>
      rw [List.mapM_cons] at h
      obtain ⟨a, ha, h⟩ := bindEq h
      obtain ⟨as, has, h⟩ := bindEq h
      cases h
      intro z hz
      cases hz with
      | head => exact hf i _ (hl i (.head _)) ha
      | tail _ hz => exact ih _ (fun j hj => hl j (.tail _ hj)) has z hz
  | _ => cases h

theorem u32_yields : Yields Json.u32 (· < 2 ^ 32) := by
  intro j x _ h
  unfold Json.u32 at h
  split at h
  · split at h
    · cases h; assumption
    · cases h
  · cases h

theorem f32_yields : Yields Json.f32 fun x => F32.isFinite x = true := by
  intro j x hj h
  unfold Json.f32 at h
  split at h
  · cases h; cases hj; assumption
  · cases h; cases hj; assumption
  · cases h

omit [F32Format] in
theorem string_eq {j : Json} {s : String} (h : j.string = .ok s) : j = .str s := by
  cases j <;> cases h
  rfl

omit [F32Format] in
theorem enum_eq {α : Type} {new : String → α} {j : Json} {x : α} (h : Json.enum new j = .ok x) :
    ∃ s, j = .str s ∧ x = new s := by
  obtain ⟨s, hs, rfl⟩ := mapEq h
  exact ⟨s, string_eq hs, rfl⟩

theorem enum_yields {α : Type} {new : String → α} {display : α → String}
    (hs : ∀ s, Stable display new (new s)) : Yields (Json.enum new) (Stable display new) := by
  intro j x _ h
  obtain ⟨s, _, rfl⟩ := enum_eq h
  exact hs s

theorem typed {o : List (String × Json)} {x : ExternalReferenceType} (ho : (Json.obj o).Settled)
    (h : Json.req o "type" (Json.enum ExternalReferenceType.new) = .ok x) :
    Stable ExternalReferenceType.display ExternalReferenceType.new x := by
  obtain ⟨j, hj, h⟩ := req_eq h
  obtain ⟨s, rfl, rfl⟩ := enum_eq h
  exact ExternalReferenceType.new_stable fun e => (settled_lookup ho hj).1.type rfl (e ▸ rfl)

theorem aggregated {o : List (String × Json)} {x : AggregateType} (ho : (Json.obj o).Settled)
    (h : Json.req o "aggregate" (Json.enum AggregateType.new) = .ok x) :
    Stable AggregateType.display AggregateType.new x := by
  obtain ⟨j, hj, h⟩ := req_eq h
  obtain ⟨s, rfl, rfl⟩ := enum_eq h
  exact AggregateType.new_stable fun e => (settled_lookup ho hj).1.aggregate rfl (e ▸ rfl)

theorem fielded {o : List (String × Json)} {x : IdentityField} (ho : (Json.obj o).Settled)
    (h : Json.req o "field" (Json.enum IdentityField.new) = .ok x) :
    Stable IdentityField.display IdentityField.new x := by
  obtain ⟨j, hj, h⟩ := req_eq h
  obtain ⟨s, rfl, rfl⟩ := enum_eq h
  exact IdentityField.new_stable ((settled_lookup ho hj).1.field rfl s rfl)

theorem tagged_yields {α : Type} {vs : List (String × (Json → Except String α))} {P : α → Prop}
    (h : ∀ p ∈ vs, Yields p.2 P) : Yields (Json.tagged vs) P := by
  intro j x hj hx
  unfold Json.tagged at hx
  split at hx
  · rename_i k i
    split at hx
    · rename_i f hf
      have hm : (k, f) ∈ vs := by
        clear h hx
        induction vs with
        | nil => cases hf
        | cons p vs ih =>
          rw [List.lookup_cons] at hf
          split at hf
          · rename_i e
            cases hf
            rw [eq_of_beq e]
            exact .head _
          · exact .tail _ (ih hf)
      cases hj with
      | obj _ hs => exact h _ hm i x (hs (k, i) (.head _)) hx
    · cases hx
  · cases hx

theorem flatUntagged_yields {α : Type} {P : α → Prop} {o : List (String × Json)} {x : α}
    (ho : (Json.obj o).Settled) : ∀ {vs : List (String × (Json → Except String α))},
    (∀ p ∈ vs, Yields p.2 P) → Json.flatUntagged o vs = .ok x → P x
  | [], _, h => nomatch h
  | (k, f) :: vs, hv, h => by
    unfold Json.flatUntagged at h
    split at h
    · rename_i j hj
      split at h
      · rename_i y hy
        cases h
        exact hv _ (.head _) j _ (settled_lookup ho hj).2 hy
      · exact flatUntagged_yields ho (fun p hp => hv p (.tail _ hp)) h
    · exact flatUntagged_yields ho (fun p hp => hv p (.tail _ hp)) h

theorem map_yields {α β : Type} {f : Json → Except String α} {g : α → β} {Q : α → Prop} {P : β → Prop}
    (hf : Yields f Q) (hg : ∀ y, Q y → P (g y)) : Yields (fun j => (f j).map g) P := by
  intro j x hj h
  obtain ⟨y, hy, rfl⟩ := mapEq h
  exact hg y (hf j y hj hy)

theorem any_yields {α : Type} (f : Json → Except String α) : Yields f fun _ => True :=
  fun _ _ _ _ => trivial

/-! ### The structures -/

variable [ReadLimit] {v w : SpecVersion}

theorem volume_mode {o : List (String × Json)} {x : VolumeMode} (hj : (Json.obj o).Settled)
    (h : (Json.opt o "mode" (Json.enum VolumeMode.new)).map (·.getD .filesystem) = .ok x) :
    Stable VolumeMode.display VolumeMode.new x := by
  obtain ⟨y, hy, rfl⟩ := mapEq h
  cases y with
  | none => rfl
  | some y => exact opt_yields hj (enum_yields VolumeMode.new_stable) hy y rfl

omit [F32Format] [ReadLimit] in
theorem component_version {o : List (String × Json)} {x : Option String} (hu : v.ord ≤ w.ord)
    (h : since14 v (Json.opt o "version" Json.string) ((Json.req o "version" Json.string).map some) = .ok x)
    (hw : w = .v1_3) : x ≠ none := by
  rintro rfl
  subst hw
  have : v = .v1_3 := by cases v <;> first | rfl | exact absurd hu (by decide)
  subst this
  obtain ⟨y, _, hy⟩ := mapEq h
  cases hy


omit [ReadLimit] in
theorem Algorithm.new_display (a : Algorithm) : Stable Algorithm.display Algorithm.new (Algorithm.new a.display) := by
  cases a <;> rfl

theorem Algorithm.reads : Yields Algorithm.ofJson (Stable Algorithm.display Algorithm.new) := by
  intro j x _ h
  unfold Algorithm.ofJson at h
  split at h
  · split at h
    · cases h
    · cases h; exact Algorithm.new_display _
  · cases h; exact Algorithm.new_display _
  · split at h
    · cases h
    · cases h; exact Algorithm.new_display _
  · cases h

theorem ComponentData.reads : Yields ComponentData.ofJson (ComponentData.JsonOk) := by
  intro j x hj h
  unfold ComponentData.ofJson at h
  obtain ⟨o, ho, k⟩ := bindEq h
  obtain rfl := fields_eq ho
  obtain ⟨a0, h0, k⟩ := bindEq k
  obtain ⟨a1, h1, k⟩ := bindEq k
  obtain ⟨a2, h2, k⟩ := bindEq k
  obtain ⟨a3, h3, k⟩ := bindEq k
  obtain ⟨a4, h4, k⟩ := bindEq k
  obtain ⟨a5, h5, k⟩ := bindEq k
  obtain ⟨a6, h6, k⟩ := bindEq k
  obtain ⟨a7, h7, k⟩ := bindEq k
  obtain ⟨a8, h8, k⟩ := bindEq k
  cases k
  have g1 := req_yields hj (enum_yields ComponentDataType.new_stable) h1
  exact { dataType := g1 }

theorem Frame.reads : Yields Frame.ofJson (Frame.JsonOk) := by
  intro j x hj h
  unfold Frame.ofJson at h
  obtain ⟨o, ho, k⟩ := bindEq h
  obtain rfl := fields_eq ho
  obtain ⟨a0, h0, k⟩ := bindEq k
  obtain ⟨a1, h1, k⟩ := bindEq k
  obtain ⟨a2, h2, k⟩ := bindEq k
  obtain ⟨a3, h3, k⟩ := bindEq k
  obtain ⟨a4, h4, k⟩ := bindEq k
  obtain ⟨a5, h5, k⟩ := bindEq k
  obtain ⟨a6, h6, k⟩ := bindEq k
  cases k
  have g4 := opt_yields hj u32_yields h4
  have g5 := opt_yields hj u32_yields h5
  exact { line := g4, column := g5 }

theorem Callstack.reads : Yields Callstack.ofJson (Callstack.JsonOk) := by
  intro j x hj h
  unfold Callstack.ofJson at h
  obtain ⟨o, ho, k⟩ := bindEq h
  obtain rfl := fields_eq ho
  obtain ⟨a0, h0, k⟩ := bindEq k
  cases k
  have g0 := req_yields hj (array_yields Frame.reads) h0
  exact { frames := g0 }

theorem Method.reads : Yields Method.ofJson (Method.JsonOk) := by
  intro j x hj h
  unfold Method.ofJson at h
  obtain ⟨o, ho, k⟩ := bindEq h
  obtain rfl := fields_eq ho
  obtain ⟨a0, h0, k⟩ := bindEq k
  obtain ⟨a1, h1, k⟩ := bindEq k
  obtain ⟨a2, h2, k⟩ := bindEq k
  cases k
  have g1 := req_yields hj f32_yields h1
  exact { confidence := g1 }

theorem Identity.reads : Yields Identity.ofJson (Identity.JsonOk) := by
  intro j x hj h
  unfold Identity.ofJson at h
  obtain ⟨o, ho, k⟩ := bindEq h
  obtain rfl := fields_eq ho
  obtain ⟨a0, h0, k⟩ := bindEq k
  obtain ⟨a1, h1, k⟩ := bindEq k
  obtain ⟨a2, h2, k⟩ := bindEq k
  obtain ⟨a3, h3, k⟩ := bindEq k
  cases k
  have g0 := fielded hj h0
  have g1 := opt_yields hj f32_yields h1
  have g2 := opt_yields hj (array_yields Method.reads) h2
  exact { field := g0, confidence := g1, methods := g2 }

theorem AttachedText.reads : Yields AttachedText.ofJson (AttachedText.JsonOk) := by
  intro j x hj h
  unfold AttachedText.ofJson at h
  obtain ⟨o, ho, k⟩ := bindEq h
  obtain rfl := fields_eq ho
  obtain ⟨a0, h0, k⟩ := bindEq k
  obtain ⟨a1, h1, k⟩ := bindEq k
  obtain ⟨a2, h2, k⟩ := bindEq k
  cases k
  have g1 := opt_yields hj (enum_yields Encoding.new_stable) h1
  exact { encoding := g1 }

theorem Licensing.reads : Yields Licensing.ofJson (Licensing.JsonOk) := by
  intro j x hj h
  unfold Licensing.ofJson at h
  obtain ⟨o, ho, k⟩ := bindEq h
  obtain rfl := fields_eq ho
  obtain ⟨a0, h0, k⟩ := bindEq k
  obtain ⟨a1, h1, k⟩ := bindEq k
  obtain ⟨a2, h2, k⟩ := bindEq k
  obtain ⟨a3, h3, k⟩ := bindEq k
  obtain ⟨a4, h4, k⟩ := bindEq k
  obtain ⟨a5, h5, k⟩ := bindEq k
  obtain ⟨a6, h6, k⟩ := bindEq k
  obtain ⟨a7, h7, k⟩ := bindEq k
  cases k
  have g5 := opt_yields hj (array_yields (enum_yields LicenseType.new_stable)) h5
  exact { licenseTypes := g5 }

theorem License.reads (hu : v.ord ≤ w.ord) : Yields (License.ofJson v) (fun x => License.JsonOk w x ∧ License.at w x = x) := by
  intro j x hj h
  unfold License.ofJson at h
  obtain ⟨o, ho, k⟩ := bindEq h
  obtain rfl := fields_eq ho
  obtain ⟨a0, h0, k⟩ := bindEq k
  obtain ⟨a1, h1, k⟩ := bindEq k
  obtain ⟨a2, h2, k⟩ := bindEq k
  obtain ⟨a3, h3, k⟩ := bindEq k
  obtain ⟨a4, h4, k⟩ := bindEq k
  obtain ⟨a5, h5, k⟩ := bindEq k
  cases k
  have e0 := gate15_at hu h0
  have g2 := opt_yields hj AttachedText.reads h2
  have g4 := opt15_yields hj Licensing.reads h4
  have e4 := gate15_at hu h4
  have e5 := gate15_at hu h5
  refine ⟨{ text := g2, licensing := fun _ => g4 }, ?_⟩
  simp only [License.at, e0, e4, e5]

theorem LicenseChoice.reads (hu : v.ord ≤ w.ord) :
    Yields (LicenseChoice.ofJson v) fun x => LicenseChoice.JsonOk w x ∧ LicenseChoice.at w x = x := by
  intro j x hj h
  unfold LicenseChoice.ofJson at h
  split at h
  · rename_i y hy
    cases h
    refine tagged_yields (P := fun x => LicenseChoice.JsonOk w x ∧ LicenseChoice.at w x = x)
      (fun p hp => ?_) j _ hj hy
    rcases List.mem_singleton.mp hp with rfl
    exact map_yields (License.reads hu) fun y hy => ⟨hy.1, congrArg LicenseChoice.license hy.2⟩
  · obtain ⟨y, _, rfl⟩ := mapEq h
    exact ⟨trivial, rfl⟩

theorem Licenses.reads (hu : v.ord ≤ w.ord) :
    Yields (Licenses.ofJson v) fun x => Licenses.JsonOk w x ∧ Licenses.at w x = x := by
  intro j x hj h
  have g := array_yields (LicenseChoice.reads hu) j x hj h
  exact ⟨fun z hz => (g z hz).1, listMap_id fun z hz => (g z hz).2⟩

theorem ComponentEvidence.reads (hu : v.ord ≤ w.ord) : Yields (ComponentEvidence.ofJson v) (fun x => ComponentEvidence.JsonOk w x ∧ ComponentEvidence.at w x = x) := by
  intro j x hj h
  unfold ComponentEvidence.ofJson at h
  obtain ⟨o, ho, k⟩ := bindEq h
  obtain rfl := fields_eq ho
  obtain ⟨a0, h0, k⟩ := bindEq k
  obtain ⟨a1, h1, k⟩ := bindEq k
  obtain ⟨a2, h2, k⟩ := bindEq k
  obtain ⟨a3, h3, k⟩ := bindEq k
  obtain ⟨a4, h4, k⟩ := bindEq k
  cases k
  have g0 := opt_yields hj (Licenses.reads hu) h0
  have e0 : a0.map (Licenses.at w) = a0 := optMap_id fun y hy => (g0 y hy).2
  have e2 := gate15_at hu h2
  have g3 := opt15_yields hj Callstack.reads h3
  have e3 := gate15_at hu h3
  have g4 := opt15_yields hj Identity.reads h4
  have e4 := gate15_at hu h4
  refine ⟨{ licenses := fun y hy => (g0 y hy).1, callstack := fun _ => g3, identity := fun _ => g4 }, ?_⟩
  simp only [ComponentEvidence.at, e0, e2, e3, e4]

theorem Hash.reads : Yields Hash.ofJson (Hash.JsonOk) := by
  intro j x hj h
  unfold Hash.ofJson at h
  obtain ⟨o, ho, k⟩ := bindEq h
  obtain rfl := fields_eq ho
  obtain ⟨a0, h0, k⟩ := bindEq k
  obtain ⟨a1, h1, k⟩ := bindEq k
  cases k
  have g0 := req_yields hj (enum_yields HashAlgorithm.new_stable) h0
  exact { alg := g0 }

theorem ExternalReference.reads : Yields ExternalReference.ofJson (ExternalReference.JsonOk) := by
  intro j x hj h
  unfold ExternalReference.ofJson at h
  obtain ⟨o, ho, k⟩ := bindEq h
  obtain rfl := fields_eq ho
  obtain ⟨a0, h0, k⟩ := bindEq k
  obtain ⟨a1, h1, k⟩ := bindEq k
  obtain ⟨a2, h2, k⟩ := bindEq k
  obtain ⟨a3, h3, k⟩ := bindEq k
  cases k
  have g0 := typed hj h0
  have g1 := req_yields hj (enum_yields RefUri.ofUrl_stable) h1
  have g3 := opt_yields hj (array_yields Hash.reads) h3
  exact { externalReferenceType := g0, url := g1, hashes := g3 }

theorem Dataset.reads : Yields Dataset.ofJson Dataset.JsonOk := by
  intro j x hj h
  unfold Dataset.ofJson at h
  split at h
  · rename_i y hy
    cases h
    exact ComponentData.reads j y hj hy
  · obtain ⟨y, _, rfl⟩ := mapEq h
    trivial

theorem ModelParametersApproach.reads : Yields ModelParametersApproach.ofJson (ModelParametersApproach.JsonOk) := by
  intro j x hj h
  unfold ModelParametersApproach.ofJson at h
  obtain ⟨o, ho, k⟩ := bindEq h
  obtain rfl := fields_eq ho
  obtain ⟨a0, h0, k⟩ := bindEq k
  cases k
  have g0 := opt_yields hj (enum_yields ApproachType.new_stable) h0
  exact { approachType := g0 }

theorem ModelParameters.reads : Yields ModelParameters.ofJson (ModelParameters.JsonOk) := by
  intro j x hj h
  unfold ModelParameters.ofJson at h
  obtain ⟨o, ho, k⟩ := bindEq h
  obtain rfl := fields_eq ho
  obtain ⟨a0, h0, k⟩ := bindEq k
  obtain ⟨a1, h1, k⟩ := bindEq k
  obtain ⟨a2, h2, k⟩ := bindEq k
  obtain ⟨a3, h3, k⟩ := bindEq k
  obtain ⟨a4, h4, k⟩ := bindEq k
  obtain ⟨a5, h5, k⟩ := bindEq k
  obtain ⟨a6, h6, k⟩ := bindEq k
  cases k
  have g0 := opt_yields hj ModelParametersApproach.reads h0
  have g4 := opt_yields hj (array_yields Dataset.reads) h4
  exact { approach := g0, datasets := g4 }

theorem ModelCard.reads : Yields ModelCard.ofJson (ModelCard.JsonOk) := by
  intro j x hj h
  unfold ModelCard.ofJson at h
  obtain ⟨o, ho, k⟩ := bindEq h
  obtain rfl := fields_eq ho
  obtain ⟨a0, h0, k⟩ := bindEq k
  obtain ⟨a1, h1, k⟩ := bindEq k
  obtain ⟨a2, h2, k⟩ := bindEq k
  obtain ⟨a3, h3, k⟩ := bindEq k
  obtain ⟨a4, h4, k⟩ := bindEq k
  cases k
  have g1 := opt_yields hj ModelParameters.reads h1
  exact { modelParameters := g1 }

theorem Diff.reads : Yields Diff.ofJson (Diff.JsonOk) := by
  intro j x hj h
  unfold Diff.ofJson at h
  obtain ⟨o, ho, k⟩ := bindEq h
  obtain rfl := fields_eq ho
  obtain ⟨a0, h0, k⟩ := bindEq k
  obtain ⟨a1, h1, k⟩ := bindEq k
  cases k
  have g0 := opt_yields hj AttachedText.reads h0
  exact { text := g0 }

theorem Issue.reads : Yields Issue.ofJson (Issue.JsonOk) := by
  intro j x hj h
  unfold Issue.ofJson at h
  obtain ⟨o, ho, k⟩ := bindEq h
  obtain rfl := fields_eq ho
  obtain ⟨a0, h0, k⟩ := bindEq k
  obtain ⟨a1, h1, k⟩ := bindEq k
  obtain ⟨a2, h2, k⟩ := bindEq k
  obtain ⟨a3, h3, k⟩ := bindEq k
  obtain ⟨a4, h4, k⟩ := bindEq k
  obtain ⟨a5, h5, k⟩ := bindEq k
  cases k
  have g0 := req_yields hj (enum_yields IssueClassification.new_stable) h0
  exact { issueType := g0 }

theorem Patch.reads : Yields Patch.ofJson (Patch.JsonOk) := by
  intro j x hj h
  unfold Patch.ofJson at h
  obtain ⟨o, ho, k⟩ := bindEq h
  obtain rfl := fields_eq ho
  obtain ⟨a0, h0, k⟩ := bindEq k
  obtain ⟨a1, h1, k⟩ := bindEq k
  obtain ⟨a2, h2, k⟩ := bindEq k
  cases k
  have g0 := req_yields hj (enum_yields PatchClassification.new_stable) h0
  have g1 := opt_yields hj Diff.reads h1
  have g2 := opt_yields hj (array_yields Issue.reads) h2
  exact { patchType := g0, diff := g1, resolves := g2 }

theorem Signer.reads : Yields Signer.ofJson (Signer.JsonOk) := by
  intro j x hj h
  unfold Signer.ofJson at h
  obtain ⟨o, ho, k⟩ := bindEq h
  obtain rfl := fields_eq ho
  obtain ⟨a0, h0, k⟩ := bindEq k
  obtain ⟨a1, h1, k⟩ := bindEq k
  cases k
  have g0 := req_yields hj Algorithm.reads h0
  exact { algorithm := g0 }

theorem Signature.reads : Yields Signature.ofJson Signature.JsonOk := by
  intro j x hj h
  unfold Signature.ofJson at h
  split at h
  · rename_i l hl
    cases h
    exact array_yields Signer.reads j l hj hl
  · rename_i e he
    obtain ⟨y, hy, rfl⟩ := mapEq h
    exact Signer.reads j y hj hy

theorem Swid.reads : Yields Swid.ofJson (Swid.JsonOk) := by
  intro j x hj h
  unfold Swid.ofJson at h
  obtain ⟨o, ho, k⟩ := bindEq h
  obtain rfl := fields_eq ho
  obtain ⟨a0, h0, k⟩ := bindEq k
  obtain ⟨a1, h1, k⟩ := bindEq k
  obtain ⟨a2, h2, k⟩ := bindEq k
  obtain ⟨a3, h3, k⟩ := bindEq k
  obtain ⟨a4, h4, k⟩ := bindEq k
  obtain ⟨a5, h5, k⟩ := bindEq k
  obtain ⟨a6, h6, k⟩ := bindEq k
  cases k
  have g3 := opt_yields hj u32_yields h3
  have g5 := opt_yields hj AttachedText.reads h5
  exact { tagVersion := g3, text := g5 }

theorem Pedigree.readsWith (hu : v.ord ≤ w.ord) {sub : Json → Except String Component} {Q : Component → Prop}
    (hs : Yields sub fun y => Q y ∧ Component.at w y = y) :
    Yields (Pedigree.ofJsonWith sub v) fun x => Pedigree.JsonOkWith Q w x ∧ Pedigree.at w x = x := by
  intro j x hj h
  unfold Pedigree.ofJsonWith at h
  obtain ⟨o, ho, k⟩ := bindEq h
  obtain rfl := fields_eq ho
  obtain ⟨a0, h0, k⟩ := bindEq k
  obtain ⟨a1, h1, k⟩ := bindEq k
  obtain ⟨a2, h2, k⟩ := bindEq k
  obtain ⟨a3, h3, k⟩ := bindEq k
  obtain ⟨a4, h4, k⟩ := bindEq k
  obtain ⟨a5, h5, k⟩ := bindEq k
  cases k
  have g0 := opt_yields hj (array_yields hs) h0
  have e0 : a0.map (List.map (Component.at w)) = a0 := optMap_id fun y hy => listMap_id fun z hz => (g0 y hy z hz).2
  have g1 := opt_yields hj (array_yields hs) h1
  have e1 : a1.map (List.map (Component.at w)) = a1 := optMap_id fun y hy => listMap_id fun z hz => (g1 y hy z hz).2
  have g2 := opt_yields hj (array_yields hs) h2
  have e2 : a2.map (List.map (Component.at w)) = a2 := optMap_id fun y hy => listMap_id fun z hz => (g2 y hy z hz).2
  have g4 := opt_yields hj (array_yields Patch.reads) h4
  refine ⟨{ ancestors := fun y hy z hz => (g0 y hy z hz).1, descendants := fun y hy z hz => (g1 y hy z hz).1, variants := fun y hy z hz => (g2 y hy z hz).1, patches := g4 }, ?_⟩
  simp only [Pedigree.at_eq, e0, e1, e2]

theorem Component.readsWith (hu : v.ord ≤ w.ord) {sub : Json → Except String Component} {Q : Component → Prop}
    (hs : Yields sub fun y => Q y ∧ Component.at w y = y) :
    Yields (Component.ofJsonWith sub v) fun x => Component.JsonOkWith Q w x ∧ Component.at w x = x := by
  intro j x hj h
  unfold Component.ofJsonWith at h
  obtain ⟨o, ho, k⟩ := bindEq h
  obtain rfl := fields_eq ho
  obtain ⟨a0, h0, k⟩ := bindEq k
  obtain ⟨a1, h1, k⟩ := bindEq k
  obtain ⟨a2, h2, k⟩ := bindEq k
  obtain ⟨a3, h3, k⟩ := bindEq k
  obtain ⟨a4, h4, k⟩ := bindEq k
  obtain ⟨a5, h5, k⟩ := bindEq k
  obtain ⟨a6, h6, k⟩ := bindEq k
  obtain ⟨a7, h7, k⟩ := bindEq k
  obtain ⟨a8, h8, k⟩ := bindEq k
  obtain ⟨a9, h9, k⟩ := bindEq k
  obtain ⟨a10, h10, k⟩ := bindEq k
  obtain ⟨a11, h11, k⟩ := bindEq k
  obtain ⟨a12, h12, k⟩ := bindEq k
  obtain ⟨a13, h13, k⟩ := bindEq k
  obtain ⟨a14, h14, k⟩ := bindEq k
  obtain ⟨a15, h15, k⟩ := bindEq k
  obtain ⟨a16, h16, k⟩ := bindEq k
  obtain ⟨a17, h17, k⟩ := bindEq k
  obtain ⟨a18, h18, k⟩ := bindEq k
  obtain ⟨a19, h19, k⟩ := bindEq k
  obtain ⟨a20, h20, k⟩ := bindEq k
  obtain ⟨a21, h21, k⟩ := bindEq k
  obtain ⟨a22, h22, k⟩ := bindEq k
  obtain ⟨a23, h23, k⟩ := bindEq k
  obtain ⟨a24, h24, k⟩ := bindEq k
  obtain ⟨a25, h25, k⟩ := bindEq k
  cases k
  have g0 := req_yields hj (enum_yields Classification.new_stable) h0
  have g10 := opt_yields hj (enum_yields Scope.new_stable) h10
  have g11 := opt_yields hj (array_yields Hash.reads) h11
  have g12 := opt_yields hj (Licenses.reads hu) h12
  have e12 : a12.map (Licenses.at w) = a12 := optMap_id fun y hy => (g12 y hy).2
  have g16 := opt_yields hj Swid.reads h16
  have g18 := opt_yields hj (Pedigree.readsWith hu hs) h18
  have e18 : a18.map (Pedigree.at w) = a18 := optMap_id fun y hy => (g18 y hy).2
  have g19 := opt_yields hj (array_yields ExternalReference.reads) h19
  have g21 := opt_yields hj (array_yields hs) h21
  have e21 : a21.map (List.map (Component.at w)) = a21 := optMap_id fun y hy => listMap_id fun z hz => (g21 y hy z hz).2
  have g22 := opt_yields hj (ComponentEvidence.reads hu) h22
  have e22 : a22.map (ComponentEvidence.at w) = a22 := optMap_id fun y hy => (g22 y hy).2
  have g23 := opt14_yields hj Signature.reads h23
  have e23 := gate14_at hu h23
  have g24 := opt15_yields hj ModelCard.reads h24
  have e24 := gate15_at hu h24
  have g25 := opt15_yields hj ComponentData.reads h25
  have e25 := gate15_at hu h25
  refine ⟨{ version := component_version hu h8, componentType := g0, scope := g10, hashes := g11, licenses := fun y hy => (g12 y hy).1, swid := g16, pedigree := fun y hy => (g18 y hy).1, externalReferences := g19, components := fun y hy z hz => (g21 y hy z hz).1, evidence := fun y hy => (g22 y hy).1, signature := fun _ => g23, modelCard := fun _ => g24, data := fun _ => g25 }, ?_⟩
  simp only [Component.at_eq, e12, e18, e21, e22, e23, e24, e25]

theorem Component.readsN (hu : v.ord ≤ w.ord) : ∀ n, Yields (Component.ofJsonN v n)
    fun x => Component.JsonOkN w n x ∧ Component.at w x = x
  | 0 => fun _ _ _ h => nomatch h
  | n + 1 => Component.readsWith hu (Component.readsN hu n)

theorem Component.reads (hu : v.ord ≤ w.ord) : Yields (Component.ofJson v) fun x => Component.JsonOk w x ∧ Component.at w x = x :=
  Component.readsN hu ReadLimit.limit

theorem DataClassification.reads : Yields DataClassification.ofJson (DataClassification.JsonOk) := by
  intro j x hj h
  unfold DataClassification.ofJson at h
  obtain ⟨o, ho, k⟩ := bindEq h
  obtain rfl := fields_eq ho
  obtain ⟨a0, h0, k⟩ := bindEq k
  obtain ⟨a1, h1, k⟩ := bindEq k
  cases k
  have g0 := req_yields hj (enum_yields DataFlowType.new_stable) h0
  exact { flow := g0 }

omit [F32Format] [ReadLimit] in
theorem array_weaken {α β : Type} {f : Json → Except String α} {g : Json → Except String β}
    (hfg : ∀ j x, f j = .ok x → ∃ y, g j = .ok y) {j : Json} {x : List α} (h : Json.array f j = .ok x) :
    ∃ y, Json.array g j = .ok y := by
  cases j with
  | arr l =>
    replace h : l.mapM f = .ok x := h
    show ∃ y, l.mapM g = .ok y
    induction l generalizing x with
    | nil => exact ⟨[], rfl⟩
    | cons i l ih =>
      rw [List.mapM_cons] at h
      obtain ⟨a, ha, h⟩ := bindEq h
      obtain ⟨as, has, _⟩ := bindEq h
      obtain ⟨b, hb⟩ := hfg _ _ ha
      obtain ⟨bs, hbs⟩ := ih has
      refine ⟨b :: bs, ?_⟩
      rw [List.mapM_cons, hb, hbs]
      rfl
  | _ => cases h

omit [F32Format] [ReadLimit] in
/-- Data flows are never read: whatever has one is read as a classification before. -/
theorem ServiceDataChoice.not_serviceData {j : Json} {l : List ServiceData} :
    ServiceDataChoice.ofJson v j ≠ .ok (.serviceData l) := by
  intro h
  unfold ServiceDataChoice.ofJson at h
  split at h
  · cases h
  · rename_i e he
    cases v
    · cases h
    · cases h
    · obtain ⟨y, hy, _⟩ := mapEq h
      obtain ⟨z, hz⟩ := array_weaken (g := DataClassification.ofJson) (fun j x hx => by
        unfold ServiceData.ofJson at hx
        obtain ⟨o, ho, k⟩ := bindEq hx
        obtain rfl := fields_eq ho
        obtain ⟨_, _, k⟩ := bindEq k
        obtain ⟨_, _, k⟩ := bindEq k
        obtain ⟨c, hc, k⟩ := bindEq k
        exact ⟨c, hc⟩) hy
      rw [hz] at he
      cases he

theorem ServiceDataChoice.reads (hu : v.ord ≤ w.ord) :
    Yields (ServiceDataChoice.ofJson v) fun x => ServiceDataChoice.JsonOk w x ∧ ServiceDataChoice.at w x = x := by
  intro j x hj h
  cases x with
  | serviceData l => exact absurd h ServiceDataChoice.not_serviceData
  | classification l =>
    refine ⟨?_, rfl⟩
    unfold ServiceDataChoice.ofJson at h
    split at h
    · rename_i l' hl
      cases h
      exact array_yields DataClassification.reads j l hj hl
    · cases v
      · cases h
      · cases h
      · obtain ⟨y, _, hy⟩ := mapEq h
        cases hy

theorem Service.readsWith (hu : v.ord ≤ w.ord) {sub : Json → Except String Service} {Q : Service → Prop}
    (hs : Yields sub fun y => Q y ∧ Service.at w y = y) :
    Yields (Service.ofJsonWith sub v) fun x => Service.JsonOkWith Q w x ∧ Service.at w x = x := by
  intro j x hj h
  unfold Service.ofJsonWith at h
  obtain ⟨o, ho, k⟩ := bindEq h
  obtain rfl := fields_eq ho
  obtain ⟨a0, h0, k⟩ := bindEq k
  obtain ⟨a1, h1, k⟩ := bindEq k
  obtain ⟨a2, h2, k⟩ := bindEq k
  obtain ⟨a3, h3, k⟩ := bindEq k
  obtain ⟨a4, h4, k⟩ := bindEq k
  obtain ⟨a5, h5, k⟩ := bindEq k
  obtain ⟨a6, h6, k⟩ := bindEq k
  obtain ⟨a7, h7, k⟩ := bindEq k
  obtain ⟨a8, h8, k⟩ := bindEq k
  obtain ⟨a9, h9, k⟩ := bindEq k
  obtain ⟨a10, h10, k⟩ := bindEq k
  obtain ⟨a11, h11, k⟩ := bindEq k
  obtain ⟨a12, h12, k⟩ := bindEq k
  obtain ⟨a13, h13, k⟩ := bindEq k
  obtain ⟨a14, h14, k⟩ := bindEq k
  obtain ⟨a15, h15, k⟩ := bindEq k
  cases k
  have g9 := opt_yields hj (ServiceDataChoice.reads hu) h9
  have e9 : a9.map (ServiceDataChoice.at w) = a9 := optMap_id fun y hy => (g9 y hy).2
  have g10 := opt_yields hj (Licenses.reads hu) h10
  have e10 : a10.map (Licenses.at w) = a10 := optMap_id fun y hy => (g10 y hy).2
  have g11 := opt_yields hj (array_yields ExternalReference.reads) h11
  have g13 := opt_yields hj (array_yields hs) h13
  have e13 : a13.map (List.map (Service.at w)) = a13 := optMap_id fun y hy => listMap_id fun z hz => (g13 y hy z hz).2
  have g14 := opt14_yields hj Signature.reads h14
  have e14 := gate14_at hu h14
  have e15 := gate15_at hu h15
  refine ⟨{ data := fun y hy => (g9 y hy).1, licenses := fun y hy => (g10 y hy).1, externalReferences := g11, services := fun y hy z hz => (g13 y hy z hz).1, signature := fun _ => g14 }, ?_⟩
  simp only [Service.at_eq, e9, e10, e13, e14, e15]

theorem Service.readsN (hu : v.ord ≤ w.ord) : ∀ n, Yields (Service.ofJsonN v n)
    fun x => Service.JsonOkN w n x ∧ Service.at w x = x
  | 0 => fun _ _ _ h => nomatch h
  | n + 1 => Service.readsWith hu (Service.readsN hu n)

theorem Service.reads (hu : v.ord ≤ w.ord) : Yields (Service.ofJson v) fun x => Service.JsonOk w x ∧ Service.at w x = x :=
  Service.readsN hu ReadLimit.limit

theorem Annotator.reads (hu : v.ord ≤ w.ord) :
    Yields (Annotator.ofJson v) fun x => Annotator.JsonOk w x ∧ Annotator.at w x = x := by
  refine tagged_yields fun p hp => ?_
  simp only [List.mem_cons, List.not_mem_nil, or_false] at hp
  rcases hp with rfl | rfl | rfl | rfl
  · exact map_yields (any_yields _) fun y _ => ⟨trivial, rfl⟩
  · exact map_yields (any_yields _) fun y _ => ⟨trivial, rfl⟩
  · exact map_yields (Component.reads hu) fun y hy => ⟨hy.1, congrArg Annotator.component hy.2⟩
  · exact map_yields (Service.reads hu) fun y hy => ⟨hy.1, congrArg Annotator.service hy.2⟩

theorem Annotation.reads (hu : v.ord ≤ w.ord) : Yields (Annotation.ofJson v) (fun x => Annotation.JsonOk w x ∧ Annotation.at w x = x) := by
  intro j x hj h
  unfold Annotation.ofJson at h
  obtain ⟨o, ho, k⟩ := bindEq h
  obtain rfl := fields_eq ho
  obtain ⟨a0, h0, k⟩ := bindEq k
  obtain ⟨a1, h1, k⟩ := bindEq k
  obtain ⟨a2, h2, k⟩ := bindEq k
  obtain ⟨a3, h3, k⟩ := bindEq k
  obtain ⟨a4, h4, k⟩ := bindEq k
  obtain ⟨a5, h5, k⟩ := bindEq k
  cases k
  have g2 := req_yields hj (Annotator.reads hu) h2
  have e2 := g2.2
  have g5 := opt_yields hj Signature.reads h5
  refine ⟨{ annotator := g2.1, signature := g5 }, ?_⟩
  simp only [Annotation.at, e2]

theorem Composition.reads (hu : v.ord ≤ w.ord) : Yields (Composition.ofJson v) (fun x => Composition.JsonOk w x ∧ Composition.at w x = x) := by
  intro j x hj h
  unfold Composition.ofJson at h
  obtain ⟨o, ho, k⟩ := bindEq h
  obtain rfl := fields_eq ho
  obtain ⟨a0, h0, k⟩ := bindEq k
  obtain ⟨a1, h1, k⟩ := bindEq k
  obtain ⟨a2, h2, k⟩ := bindEq k
  obtain ⟨a3, h3, k⟩ := bindEq k
  obtain ⟨a4, h4, k⟩ := bindEq k
  obtain ⟨a5, h5, k⟩ := bindEq k
  cases k
  have e0 := gate15_at hu h0
  have g1 := aggregated hj h1
  have e4 := gate15_at hu h4
  have g5 := opt14_yields hj Signature.reads h5
  have e5 := gate14_at hu h5
  refine ⟨{ aggregate := g1, signature := fun _ => g5 }, ?_⟩
  simp only [Composition.at, e0, e4, e5]

theorem ResourceReference.reads : Yields ResourceReference.ofJson ResourceReference.JsonOk := by
  intro j x hj h
  unfold ResourceReference.ofJson at h
  obtain ⟨o, ho, k⟩ := bindEq h
  obtain rfl := fields_eq ho
  refine flatUntagged_yields hj (fun p hp => ?_) k
  simp only [List.mem_cons, List.not_mem_nil, or_false] at hp
  rcases hp with rfl | rfl
  · exact map_yields (any_yields _) fun y _ => trivial
  · exact map_yields ExternalReference.reads fun y hy => hy

theorem RequiredInputField.reads {o : List (String × Json)} {x : RequiredInputField}
    (hj : (Json.obj o).Settled) (h : RequiredInputField.ofFields o = .ok x) : x.JsonOk := by
  refine flatUntagged_yields hj (fun p hp => ?_) h
  simp only [List.mem_cons, List.not_mem_nil, or_false] at hp
  rcases hp with rfl | rfl | rfl | rfl
  · exact map_yields ResourceReference.reads fun y hy => hy
  · exact map_yields (any_yields _) fun y _ => trivial
  · exact map_yields (any_yields _) fun y _ => trivial
  · exact map_yields (any_yields _) fun y _ => trivial

theorem RequiredOutputField.reads {o : List (String × Json)} {x : RequiredOutputField}
    (hj : (Json.obj o).Settled) (h : RequiredOutputField.ofFields o = .ok x) : x.JsonOk := by
  refine flatUntagged_yields hj (fun p hp => ?_) h
  simp only [List.mem_cons, List.not_mem_nil, or_false] at hp
  rcases hp with rfl | rfl | rfl
  · exact map_yields ResourceReference.reads fun y hy => hy
  · exact map_yields (any_yields _) fun y _ => trivial
  · exact map_yields (any_yields _) fun y _ => trivial

theorem Input.reads : Yields Input.ofJson (Input.JsonOk) := by
  intro j x hj h
  unfold Input.ofJson at h
  obtain ⟨o, ho, k⟩ := bindEq h
  obtain rfl := fields_eq ho
  obtain ⟨a0, h0, k⟩ := bindEq k
  obtain ⟨a1, h1, k⟩ := bindEq k
  obtain ⟨a2, h2, k⟩ := bindEq k
  obtain ⟨a3, h3, k⟩ := bindEq k
  cases k
  have g1 := opt_yields hj ResourceReference.reads h1
  have g2 := opt_yields hj ResourceReference.reads h2
  exact { required := RequiredInputField.reads hj h0, source := g1, target := g2 }

theorem Output.reads : Yields Output.ofJson (Output.JsonOk) := by
  intro j x hj h
  unfold Output.ofJson at h
  obtain ⟨o, ho, k⟩ := bindEq h
  obtain rfl := fields_eq ho
  obtain ⟨a0, h0, k⟩ := bindEq k
  obtain ⟨a1, h1, k⟩ := bindEq k
  obtain ⟨a2, h2, k⟩ := bindEq k
  obtain ⟨a3, h3, k⟩ := bindEq k
  obtain ⟨a4, h4, k⟩ := bindEq k
  cases k
  have g1 := opt_yields hj (enum_yields OutputType.new_stable) h1
  have g2 := opt_yields hj ResourceReference.reads h2
  have g3 := opt_yields hj ResourceReference.reads h3
  exact { required := RequiredOutputField.reads hj h0, type := g1, source := g2, target := g3 }

theorem TriggerEvent.reads : Yields TriggerEvent.ofJson (TriggerEvent.JsonOk) := by
  intro j x hj h
  unfold TriggerEvent.ofJson at h
  obtain ⟨o, ho, k⟩ := bindEq h
  obtain rfl := fields_eq ho
  obtain ⟨a0, h0, k⟩ := bindEq k
  obtain ⟨a1, h1, k⟩ := bindEq k
  obtain ⟨a2, h2, k⟩ := bindEq k
  obtain ⟨a3, h3, k⟩ := bindEq k
  obtain ⟨a4, h4, k⟩ := bindEq k
  obtain ⟨a5, h5, k⟩ := bindEq k
  obtain ⟨a6, h6, k⟩ := bindEq k
  cases k
  have g4 := opt_yields hj ResourceReference.reads h4
  have g5 := opt_yields hj ResourceReference.reads h5
  exact { source := g4, target := g5 }

theorem Trigger.reads : Yields Trigger.ofJson (Trigger.JsonOk) := by
  intro j x hj h
  unfold Trigger.ofJson at h
  obtain ⟨o, ho, k⟩ := bindEq h
  obtain rfl := fields_eq ho
  obtain ⟨a0, h0, k⟩ := bindEq k
  obtain ⟨a1, h1, k⟩ := bindEq k
  obtain ⟨a2, h2, k⟩ := bindEq k
  obtain ⟨a3, h3, k⟩ := bindEq k
  obtain ⟨a4, h4, k⟩ := bindEq k
  obtain ⟨a5, h5, k⟩ := bindEq k
  obtain ⟨a6, h6, k⟩ := bindEq k
  obtain ⟨a7, h7, k⟩ := bindEq k
  obtain ⟨a8, h8, k⟩ := bindEq k
  obtain ⟨a9, h9, k⟩ := bindEq k
  obtain ⟨a10, h10, k⟩ := bindEq k
  obtain ⟨a11, h11, k⟩ := bindEq k
  cases k
  have g4 := opt_yields hj (array_yields ResourceReference.reads) h4
  have g5 := req_yields hj (enum_yields TriggerType.new_stable) h5
  have g6 := opt_yields hj TriggerEvent.reads h6
  have g9 := opt_yields hj (array_yields Input.reads) h9
  have g10 := opt_yields hj (array_yields Output.reads) h10
  exact { resourceReferences := g4, type := g5, event := g6, inputs := g9, outputs := g10 }

theorem Volume.reads : Yields Volume.ofJson (Volume.JsonOk) := by
  intro j x hj h
  unfold Volume.ofJson at h
  obtain ⟨o, ho, k⟩ := bindEq h
  obtain rfl := fields_eq ho
  obtain ⟨a0, h0, k⟩ := bindEq k
  obtain ⟨a1, h1, k⟩ := bindEq k
  obtain ⟨a2, h2, k⟩ := bindEq k
  obtain ⟨a3, h3, k⟩ := bindEq k
  obtain ⟨a4, h4, k⟩ := bindEq k
  obtain ⟨a5, h5, k⟩ := bindEq k
  obtain ⟨a6, h6, k⟩ := bindEq k
  obtain ⟨a7, h7, k⟩ := bindEq k
  cases k
  exact { mode := volume_mode hj h2 }

theorem Workspace.reads : Yields Workspace.ofJson (Workspace.JsonOk) := by
  intro j x hj h
  unfold Workspace.ofJson at h
  obtain ⟨o, ho, k⟩ := bindEq h
  obtain rfl := fields_eq ho
  obtain ⟨a0, h0, k⟩ := bindEq k
  obtain ⟨a1, h1, k⟩ := bindEq k
  obtain ⟨a2, h2, k⟩ := bindEq k
  obtain ⟨a3, h3, k⟩ := bindEq k
  obtain ⟨a4, h4, k⟩ := bindEq k
  obtain ⟨a5, h5, k⟩ := bindEq k
  obtain ⟨a6, h6, k⟩ := bindEq k
  obtain ⟨a7, h7, k⟩ := bindEq k
  obtain ⟨a8, h8, k⟩ := bindEq k
  obtain ⟨a9, h9, k⟩ := bindEq k
  obtain ⟨a10, h10, k⟩ := bindEq k
  obtain ⟨a11, h11, k⟩ := bindEq k
  cases k
  have g5 := opt_yields hj (array_yields ResourceReference.reads) h5
  have g6 := opt_yields hj (enum_yields AccessMode.new_stable) h6
  have g10 := opt_yields hj Volume.reads h10
  exact { resourceReferences := g5, accessMode := g6, volume := g10 }

theorem WorkflowTask.reads : Yields WorkflowTask.ofJson (WorkflowTask.JsonOk) := by
  intro j x hj h
  unfold WorkflowTask.ofJson at h
  obtain ⟨o, ho, k⟩ := bindEq h
  obtain rfl := fields_eq ho
  obtain ⟨a0, h0, k⟩ := bindEq k
  obtain ⟨a1, h1, k⟩ := bindEq k
  obtain ⟨a2, h2, k⟩ := bindEq k
  obtain ⟨a3, h3, k⟩ := bindEq k
  obtain ⟨a4, h4, k⟩ := bindEq k
  obtain ⟨a5, h5, k⟩ := bindEq k
  obtain ⟨a6, h6, k⟩ := bindEq k
  obtain ⟨a7, h7, k⟩ := bindEq k
  obtain ⟨a8, h8, k⟩ := bindEq k
  obtain ⟨a9, h9, k⟩ := bindEq k
  obtain ⟨a10, h10, k⟩ := bindEq k
  obtain ⟨a11, h11, k⟩ := bindEq k
  obtain ⟨a12, h12, k⟩ := bindEq k
  obtain ⟨a13, h13, k⟩ := bindEq k
  obtain ⟨a14, h14, k⟩ := bindEq k
  cases k
  have g4 := opt_yields hj (array_yields ResourceReference.reads) h4
  have g5 := req_yields hj (array_yields (enum_yields TaskType.new_stable)) h5
  have g6 := opt_yields hj Trigger.reads h6
  have g8 := opt_yields hj (array_yields Input.reads) h8
  have g9 := opt_yields hj (array_yields Output.reads) h9
  have g12 := opt_yields hj (array_yields Workspace.reads) h12
  exact { resourceReferences := g4, taskTypes := g5, trigger := g6, inputs := g8, outputs := g9, workspaces := g12 }

theorem Workflow.reads : Yields Workflow.ofJson (Workflow.JsonOk) := by
  intro j x hj h
  unfold Workflow.ofJson at h
  obtain ⟨o, ho, k⟩ := bindEq h
  obtain rfl := fields_eq ho
  obtain ⟨a0, h0, k⟩ := bindEq k
  obtain ⟨a1, h1, k⟩ := bindEq k
  obtain ⟨a2, h2, k⟩ := bindEq k
  obtain ⟨a3, h3, k⟩ := bindEq k
  obtain ⟨a4, h4, k⟩ := bindEq k
  obtain ⟨a5, h5, k⟩ := bindEq k
  obtain ⟨a6, h6, k⟩ := bindEq k
  obtain ⟨a7, h7, k⟩ := bindEq k
  obtain ⟨a8, h8, k⟩ := bindEq k
  obtain ⟨a9, h9, k⟩ := bindEq k
  obtain ⟨a10, h10, k⟩ := bindEq k
  obtain ⟨a11, h11, k⟩ := bindEq k
  obtain ⟨a12, h12, k⟩ := bindEq k
  obtain ⟨a13, h13, k⟩ := bindEq k
  obtain ⟨a14, h14, k⟩ := bindEq k
  obtain ⟨a15, h15, k⟩ := bindEq k
  obtain ⟨a16, h16, k⟩ := bindEq k
  cases k
  have g4 := opt_yields hj (array_yields ResourceReference.reads) h4
  have g5 := opt_yields hj (array_yields WorkflowTask.reads) h5
  have g7 := req_yields hj (array_yields (enum_yields TaskType.new_stable)) h7
  have g8 := opt_yields hj Trigger.reads h8
  have g10 := opt_yields hj (array_yields Input.reads) h10
  have g11 := opt_yields hj (array_yields Output.reads) h11
  have g14 := opt_yields hj (array_yields Workspace.reads) h14
  exact { resourceReferences := g4, tasks := g5, taskTypes := g7, trigger := g8, inputs := g10, outputs := g11, workspaces := g14 }

theorem Formula.reads (hu : v.ord ≤ w.ord) : Yields (Formula.ofJson v) (fun x => Formula.JsonOk w x ∧ Formula.at w x = x) := by
  intro j x hj h
  unfold Formula.ofJson at h
  obtain ⟨o, ho, k⟩ := bindEq h
  obtain rfl := fields_eq ho
  obtain ⟨a0, h0, k⟩ := bindEq k
  obtain ⟨a1, h1, k⟩ := bindEq k
  obtain ⟨a2, h2, k⟩ := bindEq k
  obtain ⟨a3, h3, k⟩ := bindEq k
  obtain ⟨a4, h4, k⟩ := bindEq k
  cases k
  have g1 := opt_yields hj (array_yields (Component.reads hu)) h1
  have e1 : a1.map (List.map (Component.at w)) = a1 := optMap_id fun y hy => listMap_id fun z hz => (g1 y hy z hz).2
  have g2 := opt_yields hj (array_yields (Service.reads hu)) h2
  have e2 : a2.map (List.map (Service.at w)) = a2 := optMap_id fun y hy => listMap_id fun z hz => (g2 y hy z hz).2
  have g3 := opt_yields hj (array_yields Workflow.reads) h3
  refine ⟨{ components := fun y hy z hz => (g1 y hy z hz).1, services := fun y hy z hz => (g2 y hy z hz).1, workflows := g3 }, ?_⟩
  simp only [Formula.at, e1, e2]

theorem Lifecycle.reads : Yields Lifecycle.ofJson Lifecycle.JsonOk := by
  intro j x hj h
  unfold Lifecycle.ofJson at h
  split at h
  · rename_i y hy
    cases h
    refine tagged_yields (P := Lifecycle.JsonOk) (fun p hp => ?_) j _ hj hy
    rcases List.mem_singleton.mp hp with rfl
    exact map_yields (enum_yields Phase.new_stable) fun y hy => hy
  · obtain ⟨y, _, rfl⟩ := mapEq h
    trivial

theorem Tool.reads (hu : v.ord ≤ w.ord) : Yields (Tool.ofJson v) (fun x => Tool.JsonOk w x ∧ Tool.at w x = x) := by
  intro j x hj h
  unfold Tool.ofJson at h
  obtain ⟨o, ho, k⟩ := bindEq h
  obtain rfl := fields_eq ho
  obtain ⟨a0, h0, k⟩ := bindEq k
  obtain ⟨a1, h1, k⟩ := bindEq k
  obtain ⟨a2, h2, k⟩ := bindEq k
  obtain ⟨a3, h3, k⟩ := bindEq k
  obtain ⟨a4, h4, k⟩ := bindEq k
  cases k
  have g3 := opt_yields hj (array_yields Hash.reads) h3
  have g4 := opt14_yields hj (array_yields ExternalReference.reads) h4
  have e4 := gate14_at hu h4
  refine ⟨{ hashes := g3, externalReferences := fun _ => g4 }, ?_⟩
  simp only [Tool.at, e4]

theorem Tools.reads (hu : v.ord ≤ w.ord) :
    Yields (Tools.ofJson v) fun x => Tools.JsonOk w x ∧ Tools.at w x = x := by
  intro j x hj h
  unfold Tools.ofJson at h
  split at h
  · rename_i l hl
    cases h
    have g := array_yields (Tool.reads hu) j l hj hl
    exact ⟨fun z hz => (g z hz).1, congrArg Tools.list (listMap_id fun z hz => (g z hz).2)⟩
  · cases v
    · cases h
    · cases h
    · obtain rfl : w = .v1_5 := by cases w <;> first | rfl | exact absurd hu (by decide)
      replace h : Tools.objectOfJson .v1_5 j = .ok x := h
      unfold Tools.objectOfJson at h
      obtain ⟨o, ho, k⟩ := bindEq h
      obtain rfl := fields_eq ho
      obtain ⟨s, hs, k⟩ := bindEq k
      obtain ⟨c, hc, k⟩ := bindEq k
      cases k
      have gs := opt_yields hj (array_yields (Service.reads hu)) hs
      have gc := opt_yields hj (array_yields (Component.reads hu)) hc
      refine ⟨fun _ => ⟨fun l hl z hz => (gs l hl z hz).1, fun l hl z hz => (gc l hl z hz).1⟩, ?_⟩
      have es : s.map (List.map (Service.at .v1_5)) = s :=
        optMap_id fun l hl => listMap_id fun z hz => (gs l hl z hz).2
      have ec : c.map (List.map (Component.at .v1_5)) = c :=
        optMap_id fun l hl => listMap_id fun z hz => (gc l hl z hz).2
      simp only [Tools.at, es, ec, since15]

theorem Metadata.reads (hu : v.ord ≤ w.ord) : Yields (Metadata.ofJson v) (fun x => Metadata.JsonOk w x ∧ Metadata.at w x = x) := by
  intro j x hj h
  unfold Metadata.ofJson at h
  obtain ⟨o, ho, k⟩ := bindEq h
  obtain rfl := fields_eq ho
  obtain ⟨a0, h0, k⟩ := bindEq k
  obtain ⟨a1, h1, k⟩ := bindEq k
  obtain ⟨a2, h2, k⟩ := bindEq k
  obtain ⟨a3, h3, k⟩ := bindEq k
  obtain ⟨a4, h4, k⟩ := bindEq k
  obtain ⟨a5, h5, k⟩ := bindEq k
  obtain ⟨a6, h6, k⟩ := bindEq k
  obtain ⟨a7, h7, k⟩ := bindEq k
  obtain ⟨a8, h8, k⟩ := bindEq k
  cases k
  have g1 := opt_yields hj (Tools.reads hu) h1
  have e1 : a1.map (Tools.at w) = a1 := optMap_id fun y hy => (g1 y hy).2
  have g3 := opt_yields hj (Component.reads hu) h3
  have e3 : a3.map (Component.at w) = a3 := optMap_id fun y hy => (g3 y hy).2
  have g6 := opt_yields hj (Licenses.reads hu) h6
  have e6 : a6.map (Licenses.at w) = a6 := optMap_id fun y hy => (g6 y hy).2
  have g8 := opt15_yields hj (array_yields Lifecycle.reads) h8
  have e8 := gate15_at hu h8
  refine ⟨{ tools := fun y hy => (g1 y hy).1, component := fun y hy => (g3 y hy).1, licenses := fun y hy => (g6 y hy).1, lifecycles := fun _ => g8 }, ?_⟩
  simp only [Metadata.at, e1, e3, e6, e8]

theorem VulnerabilityAnalysis.reads (hu : v.ord ≤ w.ord) : Yields (VulnerabilityAnalysis.ofJson v) (fun x => VulnerabilityAnalysis.JsonOk x ∧ VulnerabilityAnalysis.at w x = x) := by
  intro j x hj h
  unfold VulnerabilityAnalysis.ofJson at h
  obtain ⟨o, ho, k⟩ := bindEq h
  obtain rfl := fields_eq ho
  obtain ⟨a0, h0, k⟩ := bindEq k
  obtain ⟨a1, h1, k⟩ := bindEq k
  obtain ⟨a2, h2, k⟩ := bindEq k
  obtain ⟨a3, h3, k⟩ := bindEq k
  obtain ⟨a4, h4, k⟩ := bindEq k
  obtain ⟨a5, h5, k⟩ := bindEq k
  cases k
  have g0 := opt_yields hj (enum_yields ImpactAnalysisState.new_stable) h0
  have g1 := opt_yields hj (enum_yields ImpactAnalysisJustification.new_stable) h1
  have g2 := opt_yields hj (array_yields (enum_yields ImpactAnalysisResponse.new_stable)) h2
  have e4 := gate15_at hu h4
  have e5 := gate15_at hu h5
  refine ⟨{ state := g0, justification := g1, responses := g2 }, ?_⟩
  simp only [VulnerabilityAnalysis.at, e4, e5]

theorem VulnerabilityRating.reads : Yields VulnerabilityRating.ofJson (VulnerabilityRating.JsonOk) := by
  intro j x hj h
  unfold VulnerabilityRating.ofJson at h
  obtain ⟨o, ho, k⟩ := bindEq h
  obtain rfl := fields_eq ho
  obtain ⟨a0, h0, k⟩ := bindEq k
  obtain ⟨a1, h1, k⟩ := bindEq k
  obtain ⟨a2, h2, k⟩ := bindEq k
  obtain ⟨a3, h3, k⟩ := bindEq k
  obtain ⟨a4, h4, k⟩ := bindEq k
  obtain ⟨a5, h5, k⟩ := bindEq k
  cases k
  have g1 := opt_yields hj f32_yields h1
  have g2 := opt_yields hj (enum_yields Severity.new_stable) h2
  have g3 := opt_yields hj (enum_yields ScoreMethod.new_stable) h3
  exact { score := g1, severity := g2, scoreMethod := g3 }

theorem TargetVersion.reads : Yields TargetVersion.ofJson (TargetVersion.JsonOk) := by
  intro j x hj h
  unfold TargetVersion.ofJson at h
  obtain ⟨o, ho, k⟩ := bindEq h
  obtain rfl := fields_eq ho
  obtain ⟨a0, h0, k⟩ := bindEq k
  obtain ⟨a1, h1, k⟩ := bindEq k
  cases k
  have g1 := req_yields hj (enum_yields Status.new_stable) h1
  exact { status := g1 }

theorem VulnerabilityTarget.reads : Yields VulnerabilityTarget.ofJson (VulnerabilityTarget.JsonOk) := by
  intro j x hj h
  unfold VulnerabilityTarget.ofJson at h
  obtain ⟨o, ho, k⟩ := bindEq h
  obtain rfl := fields_eq ho
  obtain ⟨a0, h0, k⟩ := bindEq k
  obtain ⟨a1, h1, k⟩ := bindEq k
  cases k
  have g1 := opt_yields hj (array_yields TargetVersion.reads) h1
  exact { versions := g1 }

theorem Vulnerability.reads (hu : v.ord ≤ w.ord) : Yields (Vulnerability.ofJson v) (fun x => Vulnerability.JsonOk w x ∧ Vulnerability.at w x = x) := by
  intro j x hj h
  unfold Vulnerability.ofJson at h
  obtain ⟨o, ho, k⟩ := bindEq h
  obtain rfl := fields_eq ho
  obtain ⟨a0, h0, k⟩ := bindEq k
  obtain ⟨a1, h1, k⟩ := bindEq k
  obtain ⟨a2, h2, k⟩ := bindEq k
  obtain ⟨a3, h3, k⟩ := bindEq k
  obtain ⟨a4, h4, k⟩ := bindEq k
  obtain ⟨a5, h5, k⟩ := bindEq k
  obtain ⟨a6, h6, k⟩ := bindEq k
  obtain ⟨a7, h7, k⟩ := bindEq k
  obtain ⟨a8, h8, k⟩ := bindEq k
  obtain ⟨a9, h9, k⟩ := bindEq k
  obtain ⟨a10, h10, k⟩ := bindEq k
  obtain ⟨a11, h11, k⟩ := bindEq k
  obtain ⟨a12, h12, k⟩ := bindEq k
  obtain ⟨a13, h13, k⟩ := bindEq k
  obtain ⟨a14, h14, k⟩ := bindEq k
  obtain ⟨a15, h15, k⟩ := bindEq k
  obtain ⟨a16, h16, k⟩ := bindEq k
  obtain ⟨a17, h17, k⟩ := bindEq k
  obtain ⟨a18, h18, k⟩ := bindEq k
  obtain ⟨a19, h19, k⟩ := bindEq k
  obtain ⟨a20, h20, k⟩ := bindEq k
  cases k
  have g4 := opt_yields hj (array_yields VulnerabilityRating.reads) h4
  have g5 := opt_yields hj (array_yields u32_yields) h5
  have e9 := gate15_at hu h9
  have e10 := gate15_at hu h10
  have e15 := gate15_at hu h15
  have g17 := opt_yields hj (Tools.reads hu) h17
  have e17 : a17.map (Tools.at w) = a17 := optMap_id fun y hy => (g17 y hy).2
  have g18 := opt_yields hj (VulnerabilityAnalysis.reads hu) h18
  have e18 : a18.map (VulnerabilityAnalysis.at w) = a18 := optMap_id fun y hy => (g18 y hy).2
  have g19 := opt_yields hj (array_yields VulnerabilityTarget.reads) h19
  refine ⟨{ vulnerabilityRatings := g4, cwes := g5, tools := fun y hy => (g17 y hy).1, vulnerabilityAnalysis := fun y hy => (g18 y hy).1, vulnerabilityTargets := g19 }, ?_⟩
  simp only [Vulnerability.at, e9, e10, e15, e17, e18]

theorem Bom.reads (hu : v.ord ≤ w.ord) : Yields (Bom.ofJson v) (fun x => Bom.JsonOk w x ∧ Bom.at w x = { x with specVersion := w }) := by
  intro j x hj h
  unfold Bom.ofJson at h
  obtain ⟨o, ho, k⟩ := bindEq h
  obtain rfl := fields_eq ho
  obtain ⟨a0, h0, k⟩ := bindEq k
  obtain ⟨a1, h1, k⟩ := bindEq k
  obtain ⟨a2, h2, k⟩ := bindEq k
  obtain ⟨a3, h3, k⟩ := bindEq k
  obtain ⟨a4, h4, k⟩ := bindEq k
  obtain ⟨a5, h5, k⟩ := bindEq k
  obtain ⟨a6, h6, k⟩ := bindEq k
  obtain ⟨a7, h7, k⟩ := bindEq k
  obtain ⟨a8, h8, k⟩ := bindEq k
  obtain ⟨a9, h9, k⟩ := bindEq k
  obtain ⟨a10, h10, k⟩ := bindEq k
  obtain ⟨a11, h11, k⟩ := bindEq k
  obtain ⟨a12, h12, k⟩ := bindEq k
  obtain ⟨a13, h13, k⟩ := bindEq k
  obtain ⟨a14, h14, k⟩ := bindEq k
  cases k
  have g2 := req_yields hj u32_yields h2
  have g4 := opt_yields hj (Metadata.reads hu) h4
  have e4 : a4.map (Metadata.at w) = a4 := optMap_id fun y hy => (g4 y hy).2
  have g5 := opt_yields hj (array_yields (Component.reads hu)) h5
  have e5 : a5.map (List.map (Component.at w)) = a5 := optMap_id fun y hy => listMap_id fun z hz => (g5 y hy z hz).2
  have g6 := opt_yields hj (array_yields (Service.reads hu)) h6
  have e6 : a6.map (List.map (Service.at w)) = a6 := optMap_id fun y hy => listMap_id fun z hz => (g6 y hy z hz).2
  have g7 := opt_yields hj (array_yields ExternalReference.reads) h7
  have g9 := opt_yields hj (array_yields (Composition.reads hu)) h9
  have e9 : a9.map (List.map (Composition.at w)) = a9 := optMap_id fun y hy => listMap_id fun z hz => (g9 y hy z hz).2
  have g10 := opt14_yields hj (array_yields (Vulnerability.reads hu)) h10
  have e10 := gate14_at hu h10
  have e10' : a10.map (List.map (Vulnerability.at w)) = a10 := optMap_id fun y hy => listMap_id fun z hz => (g10 y hy z hz).2
  have g11 := opt14_yields hj Signature.reads h11
  have e11 := gate14_at hu h11
  have g12 := opt15_yields hj (array_yields (Annotation.reads hu)) h12
  have e12 := gate15_at hu h12
  have e12' : a12.map (List.map (Annotation.at w)) = a12 := optMap_id fun y hy => listMap_id fun z hz => (g12 y hy z hz).2
  have e13 := gate15_at hu h13
  have g14 := opt15_yields hj (array_yields (Formula.reads hu)) h14
  have e14 := gate15_at hu h14
  have e14' : a14.map (List.map (Formula.at w)) = a14 := optMap_id fun y hy => listMap_id fun z hz => (g14 y hy z hz).2
  refine ⟨{ version := g2, metadata := fun y hy => (g4 y hy).1, components := fun y hy z hz => (g5 y hy z hz).1, services := fun y hy z hz => (g6 y hy z hz).1, externalReferences := g7, compositions := fun y hy z hz => (g9 y hy z hz).1, vulnerabilities := fun _ => fun y hy z hz => (g10 y hy z hz).1, signature := fun _ => g11, annotations := fun _ => fun y hy z hz => (g12 y hy z hz).1, formulation := fun _ => fun y hy z hz => (g14 y hy z hz).1 }, ?_⟩
  simp only [Bom.at, e4, e5, e6, e9, e10, e10', e11, e12, e12', e13, e14, e14']

end Cdx
