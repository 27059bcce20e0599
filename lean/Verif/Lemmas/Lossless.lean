import Verif.Spec.Lossless
import Verif.Spec.Settled
import Verif.Lemmas.Readable
import Verif.Lemmas.Format.Component
import Verif.Lemmas.Format.Service

/-!
# Lemmas: what is written again is what was read
-/

namespace Cdx

open Spec

set_option linter.unusedVariables false
set_option linter.unusedSectionVars false

/-- The reader succeeds, and the writer gives the same value back. -/
def Keeps {α : Type} (f : Json → Except String α) (g : α → Json) (j : Json) : Prop :=
  j ≠ .null ∧ ∃ x, f j = .ok x ∧ Same (g x) j

/-- The member with this name is written as it was, or is neither there nor written. -/
def FieldKept (o : List (String × Json)) (k : String) : Option Json → Prop
  | some j => ∃ x, (k, x) ∈ o ∧ Same j x
  | none => ∀ x, (k, x) ∉ o

/-- What the theorem assumes beside the schema, for a value inside the document. -/
structure Clean [F32Format] (n : Nat) (j : Json) : Prop where
  sane : Sane n j
  lossless : Everywhere Lossless j
  settled : j.Settled

section
variable [F32Format] {n : Nat} {o : List (String × Json)} {l : List Json} {k : String} {x j : Json}

theorem Clean.succ (h : Clean n j) : Clean (n + 1) j := ⟨h.1.succ, h.2, h.3⟩

theorem Clean.down (h : Clean (n + 1) (.obj o)) (m : (k, x) ∈ o) : Clean n x := by
  obtain ⟨h1, h2, h3⟩ := h
  cases h2 with | obj _ h2 =>
  cases h3 with | obj _ h3 => exact ⟨h1.down m, h2 _ m, h3 _ m⟩

theorem Clean.member (h : Clean n (.obj o)) (m : (k, x) ∈ o) : Clean n x := by
  obtain ⟨h1, h2, h3⟩ := h
  cases h2 with | obj _ h2 =>
  cases h3 with | obj _ h3 => exact ⟨h1.member m, h2 _ m, h3 _ m⟩

theorem Clean.item (h : Clean n (.arr l)) (m : x ∈ l) : Clean n x := by
  obtain ⟨h1, h2, h3⟩ := h
  cases h2 with | arr h2 =>
  cases h3 with | arr h3 => exact ⟨h1.item m, h2 _ m, h3 _ m⟩

theorem Clean.readable (h : Clean n (.obj o)) : Readable o := h.1.readable

theorem Clean.nodup (h : Clean n (.obj o)) : (o.map Prod.fst).Nodup := h.1.nodup

macro_rules
  | `(tactic| distinct_members) => `(tactic| exact Clean.nodup (by assumption))

theorem Clean.kept (h : Clean n (.obj o)) : Lossless o := by
  cases h.2 with | obj h _ => exact h

theorem Clean.known (h : Clean n (.obj o)) (m : (k, x) ∈ o) : Json.Kept k x := by
  cases h.3 with | obj h _ => exact h _ m

end

section
variable {α β : Type} {f : Json → Except String α} {g : α → Json} {o : List (String × Json)} {k : String}

theorem bind_keeps {m : Except String α} {c : α → Except String β} {P : α → Prop} {Q : β → Prop}
    (h : ∃ x, m = .ok x ∧ P x) (h' : ∀ x, P x → ∃ y, c x = .ok y ∧ Q y) :
    ∃ y, (m >>= c) = .ok y ∧ Q y := by
  obtain ⟨x, rfl, hx⟩ := h
  exact h' x hx

/-- A value that is not read, because the version does not have it. -/
theorem skip_keeps {x : α} {c : α → Except String β} {Q : β → Prop}
    (h' : ∃ y, c x = .ok y ∧ Q y) : ∃ y, (Except.ok x >>= c) = .ok y ∧ Q y := h'

theorem fields_keeps {c : List (String × Json) → Except String β} {Q : β → Prop}
    (h : ∃ y, c o = .ok y ∧ Q y) : ∃ y, ((Json.obj o).fields >>= c) = .ok y ∧ Q y := h

theorem object_keeps {c : List (String × Json) → Except String α}
    (h : ∃ y, c o = .ok y ∧ Same (g y) (.obj o)) : Keeps (fun j => j.fields >>= c) g (.obj o) :=
  ⟨nofun, h⟩

theorem opt_keeps (h : ∀ x, (k, x) ∈ o → Keeps f g x)
    (hn : (o.map Prod.fst).Nodup := by distinct_members) :
    ∃ y, Json.opt o k f = .ok y ∧ FieldKept o k (y.map g) := by
  unfold Json.opt
  rw [Json.get_nodup hn]
  split
  · rename_i hl
    refine ⟨none, rfl, fun x hx => ?_⟩
    obtain ⟨y, hy⟩ := lookup_member hx
    rw [hy] at hl
    cases hl
  · rename_i hl
    exact absurd rfl (h _ (lookup_some_mem (Except.ok.inj hl))).1
  · rename_i j hj hl
    obtain ⟨-, y, hy, hs⟩ := h j (lookup_some_mem (Except.ok.inj hl))
    exact ⟨some y, by rw [hy]; rfl, j, lookup_some_mem (Except.ok.inj hl), hs⟩
  · rename_i hl
    exact nomatch hl

theorem req_keeps (hm : ∃ x, (k, x) ∈ o) (h : ∀ x, (k, x) ∈ o → Keeps f g x)
    (hn : (o.map Prod.fst).Nodup := by distinct_members) :
    ∃ y, Json.req o k f = .ok y ∧ FieldKept o k (some (g y)) := by
  obtain ⟨x, hx⟩ := hm
  obtain ⟨y, hy⟩ := lookup_member hx
  obtain ⟨-, z, hz, hs⟩ := h y (lookup_some_mem hy)
  exact ⟨z, by rw [Json.req, Json.get_nodup hn, hy]; exact hz, y, lookup_some_mem hy, hs⟩

/-- A member that is written as `null` if it is missing. -/
theorem orNull_keeps (hm : ∃ x, (k, x) ∈ o) (h : ∀ x, (k, x) ∈ o → Keeps f g x)
    (hn : (o.map Prod.fst).Nodup := by distinct_members) :
    ∃ y, Json.opt o k f = .ok y ∧ FieldKept o k (some (Json.orNull g y)) := by
  obtain ⟨y, hy, hk⟩ := opt_keeps h
  obtain ⟨x, hx⟩ := hm
  cases y with
  | none => exact absurd hx (hk x)
  | some y => exact ⟨some y, hy, hk⟩

/-- A member that is written with a default if it is missing. -/
theorem default_keeps {d : α} (hm : ∃ x, (k, x) ∈ o) (h : ∀ x, (k, x) ∈ o → Keeps f g x)
    (hn : (o.map Prod.fst).Nodup := by distinct_members) :
    ∃ y, (Json.opt o k f).map (·.getD d) = .ok y ∧ FieldKept o k (some (g y)) := by
  obtain ⟨y, hy, hk⟩ := opt_keeps h
  obtain ⟨x, hx⟩ := hm
  cases y with
  | none => exact absurd hx (hk x)
  | some y => exact ⟨y, by rw [hy]; rfl, hk⟩

theorem array_keeps {l : List Json} (h : ∀ x ∈ l, Keeps f g x) :
    Keeps (Json.array f) (Json.ofList g) (.arr l) := by
  refine ⟨nofun, ?_⟩
  simp only [Json.array, Json.ofList]
  induction l with
  | nil => exact ⟨[], rfl, .nil⟩
  | cons x l ih =>
    obtain ⟨-, y, hy, hs⟩ := h x (by simp)
    obtain ⟨ys, hys, hss⟩ := ih fun z hz => h z (by simp [hz])
    exact ⟨y :: ys, by simp [List.mapM_cons, hy, hys, bind, Except.bind, pure, Except.pure], .cons hs hss⟩

theorem items_keeps [F32Format] {C : Context} {s : Schema} {x : Json} {n : Nat}
    (ht : Valid C (.kw (.type .array)) x) (hi : Valid C (.items s) x) (hs : Clean n x)
    (h : ∀ l, x = .arr l → ∀ y ∈ l, Valid C s y → Clean n y → Keeps f g y) :
    Keeps (Json.array f) (Json.ofList g) x := by
  obtain ⟨l, rfl⟩ := type_array ht
  exact array_keeps fun y hy => h l rfl y hy (valid_items.mp hi y hy) (hs.item hy)

theorem orEmpty_keeps (h0 : (k, .arr []) ∉ o)
    (h : ∀ x, (k, x) ∈ o → Keeps (Json.array f) (Json.ofList g) x)
    (hn : (o.map Prod.fst).Nodup := by distinct_members) :
    ∃ y, Json.orEmpty o k f = .ok y ∧ FieldKept o k (Json.unlessEmpty g y) := by
  unfold Json.orEmpty
  rw [Json.get_nodup hn]
  split
  · rename_i hl
    refine ⟨[], rfl, fun x hx => ?_⟩
    obtain ⟨y, hy⟩ := lookup_member hx
    rw [hy] at hl
    cases hl
  · rename_i j hl
    obtain ⟨-, y, hy, hs⟩ := h j (lookup_some_mem (Except.ok.inj hl))
    refine ⟨y, hy, ?_⟩
    unfold Json.unlessEmpty
    split
    · rename_i he
      obtain rfl := List.isEmpty_iff.mp he
      cases hs
      exact absurd (lookup_some_mem (Except.ok.inj hl)) h0
    · exact ⟨j, lookup_some_mem (Except.ok.inj hl), hs⟩
  · rename_i hl
    exact nomatch hl

end

/-! ### Objects -/

theorem forall_head {α : Type} {P : α → Prop} {a : α} {l : List α} (h : P a) (h' : ∀ x ∈ l, P x) :
    ∀ x ∈ a :: l, P x := by
  intro x hx
  rcases List.mem_cons.mp hx with rfl | hx
  · exact h
  · exact h' x hx

theorem forall_append {α : Type} {P : α → Prop} {l m : List α} (h : ∀ x ∈ l, P x) (h' : ∀ x ∈ m, P x) :
    ∀ x ∈ l ++ m, P x := by
  intro x hx
  rcases List.mem_append.mp hx with hx | hx
  · exact h x hx
  · exact h' x hx

theorem member_mkFields {l : List (String × Option Json)} {k : String} {x : Json} :
    (k, x) ∈ Json.mkFields l ↔ (k, some x) ∈ l := by
  simp only [Json.mkFields, List.mem_filterMap, Option.map_eq_some_iff, Prod.mk.injEq]
  constructor
  · rintro ⟨⟨k', w⟩, hm, x', hw, rfl, rfl⟩
    simp only at hw
    rwa [← hw]
  · intro h
    exact ⟨_, h, x, rfl, rfl, rfl⟩

theorem same_mk {o : List (String × Json)} {l : List (String × Option Json)}
    (hn : (o.map Prod.fst).Nodup) (hl : ∀ p ∈ l, FieldKept o p.1 p.2)
    (hk : ∀ k x, (k, x) ∈ o → ∃ w, (k, w) ∈ l) : Same (Json.mk l) (.obj o) := by
  refine .obj (fun k => ⟨?_, ?_⟩) ?_
  · rintro ⟨x, hx⟩
    obtain ⟨y, hy, -⟩ := hl _ (member_mkFields.mp hx)
    exact ⟨y, hy⟩
  · rintro ⟨y, hy⟩
    obtain ⟨w, hw⟩ := hk k y hy
    cases w with
    | none => exact absurd hy (hl _ hw y)
    | some x => exact ⟨x, member_mkFields.mpr hw⟩
  · intro k x y hx hy
    obtain ⟨z, hz, hs⟩ := hl _ (member_mkFields.mp hx)
    rwa [nodup_unique hn hy hz]

theorem same_mk_assoc {j : Json} {l m p : List (String × Option Json)} (h : Same (Json.mk (l ++ (m ++ p))) j) :
    Same (Json.mk (l ++ m ++ p)) j := by rwa [List.append_assoc]

/-- All members of the object are written, if those that are never written are not there. -/
theorem all_written {o : List (String × Json)} {l : List (String × Option Json)} {all lost ks : List String}
    (hc : OnlyHas all o) (hd : ∀ k ∈ lost, ∀ x, (k, x) ∉ o) (e : l.map Prod.fst = ks)
    (h : (all.all fun k => lost.contains k || ks.contains k) = true) :
    ∀ k x, (k, x) ∈ o → ∃ w, (k, w) ∈ l := by
  intro k x hx
  have := List.all_eq_true.mp h k (hc k x hx)
  simp only [Bool.or_eq_true, List.contains_iff_mem] at this
  rcases this with h | h
  · exact absurd hx (hd k h x)
  · rw [← e] at h
    obtain ⟨⟨k', w⟩, hw, rfl⟩ := List.mem_map.mp h
    exact ⟨w, hw⟩

/-- The same for an object with a flattened part, whose members are `vs`. -/
theorem all_written_flat {o : List (String × Json)} {l m : List (String × Option Json)}
    {all lost vs ks : List String}
    (hc : OnlyHas all o) (hd : ∀ k ∈ lost, ∀ x, (k, x) ∉ o)
    (hf : ∀ k ∈ vs, ∀ x, (k, x) ∈ o → ∃ w, (k, w) ∈ m) (e : l.map Prod.fst = ks)
    (h : (all.all fun k => lost.contains k || vs.contains k || ks.contains k) = true) :
    ∀ k x, (k, x) ∈ o → ∃ w, (k, w) ∈ m ++ l := by
  intro k x hx
  have := List.all_eq_true.mp h k (hc k x hx)
  simp only [Bool.or_eq_true, List.contains_iff_mem] at this
  rcases this with (h | h) | h
  · exact absurd hx (hd k h x)
  · obtain ⟨w, hw⟩ := hf k h x hx
    exact ⟨w, List.mem_append_left _ hw⟩
  · rw [← e] at h
    obtain ⟨⟨k', w⟩, hw, rfl⟩ := List.mem_map.mp h
    exact ⟨w, List.mem_append_right _ hw⟩

theorem closed_only {C : Context} {ks : List String} {o : List (String × Json)}
    (h : Valid C (.kw (.closed ks)) (.obj o)) : OnlyHas ks o := fun _ _ m => valid_closed h m

theorem no_members {o : List (String × Json)} : ∀ k ∈ ([] : List String), ∀ x, (k, x) ∉ o := nofun

theorem no_member {o : List (String × Json)} {k : String} {ks : List String} (h : ∀ x, (k, x) ∉ o)
    (h' : ∀ k ∈ ks, ∀ x, (k, x) ∉ o) : ∀ k' ∈ k :: ks, ∀ x, (k', x) ∉ o := forall_head h h'

theorem not_has {o : List (String × Json)} {k : String} (h : ¬ Has k (.obj o)) (x : Json) : (k, x) ∉ o :=
  fun m => h ⟨o, x, rfl, m⟩

/-! ### Single values -/

theorem string_keeps {x : Json} (h : ∃ s, x = .str s) : Keeps Json.string Json.str x := by
  obtain ⟨s, rfl⟩ := h
  exact ⟨nofun, s, rfl, .str s⟩

theorem enum_keeps {α : Type} {new : String → α} {display : α → String} {x : Json} (h : ∃ s, x = .str s)
    (hd : ∀ s, x = .str s → display (new s) = s) : Keeps (Json.enum new) (Json.ofEnum display) x := by
  obtain ⟨s, rfl⟩ := h
  refine ⟨nofun, new s, rfl, ?_⟩
  rw [Json.ofEnum, hd s rfl]
  exact .str s

theorem boolean_keeps {C : Context} {x : Json} (h : Valid C (.kw (.type .boolean)) x) :
    Keeps Json.boolean Json.bool x := by
  have := valid_type h
  cases x <;> simp_all [HasType]
  exact ⟨nofun, _, rfl, .bool _⟩

theorem u32_keeps {x : Json} (h : Small x) : Keeps Json.u32 Json.nat x := by
  obtain ⟨n, hn, rfl⟩ := h
  exact ⟨nofun, n, by rw [Json.u32, if_pos hn], .nat n⟩

theorem f32_keeps [F32Format] {n : Nat} {x : Json} (h : IsNumber x) (h' : x ≠ .other) (hs : Clean n x)
    (he : ∀ m, x = .nat m → (m : ℚ) = numberOf (F32Format.ofNat m)) : Keeps Json.f32 Json.ofF32 x := by
  cases x with
  | nat m =>
    refine ⟨nofun, _, rfl, ?_⟩
    cases hs.settled with | nat hf =>
    rw [Json.ofF32, if_pos hf]
    exact .floatNat (he m rfl)
  | float y =>
    refine ⟨nofun, _, rfl, ?_⟩
    cases hs.settled with | float hf =>
    rw [Json.ofF32, if_pos hf]
    exact .float rfl
  | other => exact absurd rfl h'
  | _ => cases h

/-! ### Enumerations: what is printed is what was read -/

theorem Classification.display_new (s : String) : Classification.display (Classification.new s) = s := by
  fun_cases Classification.new s <;> rfl

theorem Scope.display_new (s : String) : Scope.display (Scope.new s) = s := by
  fun_cases Scope.new s <;> rfl

theorem IdentityField.display_new {s : String} (h : s ∈ keptIdentityFields) : IdentityField.display (IdentityField.new s) = s := by
  simp only [keptIdentityFields, List.mem_cons, List.not_mem_nil, or_false] at h
  rcases h with rfl | rfl | rfl | rfl | rfl | rfl | rfl | rfl <;> rfl

theorem Encoding.display_new (s : String) : Encoding.display (Encoding.new s) = s := by
  fun_cases Encoding.new s <;> rfl

theorem IssueClassification.display_new (s : String) : IssueClassification.display (IssueClassification.new s) = s := by
  fun_cases IssueClassification.new s <;> rfl

theorem PatchClassification.display_new (s : String) : PatchClassification.display (PatchClassification.new s) = s := by
  fun_cases PatchClassification.new s <;> rfl

theorem ComponentDataType.display_new (s : String) : ComponentDataType.display (ComponentDataType.new s) = s := by
  fun_cases ComponentDataType.new s <;> rfl

theorem AggregateType.display_new {s : String} (h : s ≠ "incomplete_first_party_propprietary_only") :
    AggregateType.display (AggregateType.new s) = s := by
  fun_cases AggregateType.new s <;> first | rfl | exact absurd rfl h

theorem ExternalReferenceType.display_new {s : String} (h : s ≠ "codified-infrastructure") :
    ExternalReferenceType.display (ExternalReferenceType.new s) = s := by
  fun_cases ExternalReferenceType.new s <;> first | rfl | exact absurd rfl h

theorem HashAlgorithm.display_new (s : String) : HashAlgorithm.display (HashAlgorithm.new s) = s := by
  fun_cases HashAlgorithm.new s <;> rfl

theorem LicenseType.display_new (s : String) : LicenseType.display (LicenseType.new s) = s := by
  fun_cases LicenseType.new s <;> rfl

theorem Phase.display_new (s : String) : Phase.display (Phase.new s) = s := by
  fun_cases Phase.new s <;> rfl

theorem ApproachType.display_new (s : String) : ApproachType.display (ApproachType.new s) = s := by
  fun_cases ApproachType.new s <;> rfl

theorem DataFlowType.display_new (s : String) : DataFlowType.display (DataFlowType.new s) = s := by
  fun_cases DataFlowType.new s <;> rfl

theorem ImpactAnalysisState.display_new (s : String) : ImpactAnalysisState.display (ImpactAnalysisState.new s) = s := by
  fun_cases ImpactAnalysisState.new s <;> rfl

theorem ImpactAnalysisJustification.display_new (s : String) : ImpactAnalysisJustification.display (ImpactAnalysisJustification.new s) = s := by
  fun_cases ImpactAnalysisJustification.new s <;> rfl

theorem ImpactAnalysisResponse.display_new (s : String) : ImpactAnalysisResponse.display (ImpactAnalysisResponse.new s) = s := by
  fun_cases ImpactAnalysisResponse.new s <;> rfl

theorem Severity.display_new (s : String) : Severity.display (Severity.new s) = s := by
  fun_cases Severity.new s <;> rfl

theorem ScoreMethod.display_new (s : String) : ScoreMethod.display (ScoreMethod.new s) = s := by
  fun_cases ScoreMethod.new s <;> rfl

theorem Status.display_new (s : String) : Status.display (Status.new s) = s := by
  fun_cases Status.new s <;> rfl

theorem TaskType.display_new (s : String) : TaskType.display (TaskType.new s) = s := by
  fun_cases TaskType.new s <;> rfl

theorem OutputType.display_new (s : String) : OutputType.display (OutputType.new s) = s := by
  fun_cases OutputType.new s <;> rfl

theorem TriggerType.display_new (s : String) : TriggerType.display (TriggerType.new s) = s := by
  fun_cases TriggerType.new s <;> rfl

theorem AccessMode.display_new (s : String) : AccessMode.display (AccessMode.new s) = s := by
  fun_cases AccessMode.new s <;> rfl

theorem VolumeMode.display_new (s : String) : VolumeMode.display (VolumeMode.new s) = s := by
  fun_cases VolumeMode.new s <;> rfl

theorem RefUri.display_ofUrl (s : String) : RefUri.display (RefUri.ofUrl s) = s := by
  unfold RefUri.ofUrl
  split <;> rfl

/-! ### Enumerations in objects -/

theorem same_single {k : String} {x y : Json} (h : Same x y) : Same (.obj [(k, x)]) (.obj [(k, y)]) := by
  refine .obj (fun k' => ?_) fun k' a b ha hb => ?_
  · simp
  · simp only [List.mem_cons, List.not_mem_nil, or_false, Prod.mk.injEq] at ha hb
    rw [ha.2, hb.2]
    exact h

/-- An object without the member cannot be read as the variant named after it. -/
theorem tagged_fails {α : Type} {k : String} {f : Json → Except String α} {o : List (String × Json)}
    (h : ∀ x, (k, x) ∉ o) : ∃ e, Json.tagged [(k, f)] (.obj o) = .error e := by
  unfold Json.tagged
  split
  · rename_i k' j e
    cases e
    have hne : (k' == k) = false := by
      by_contra hb
      have : k' = k := by simpa using hb
      subst this
      exact h j (.head _)
    exact ⟨_, by simp [List.lookup, hne]; rfl⟩
  · exact ⟨_, rfl⟩

theorem tagged_keeps {α β : Type} {vs : List (String × (Json → Except String α))} {g : α → Json}
    {f : Json → Except String β} {c : β → α} {w : β → Json} {k : String} {x : Json}
    (hf : vs.lookup k = some fun j => (f j).map c) (h : Keeps f w x) (hg : ∀ y, g (c y) = .obj [(k, w y)]) :
    Keeps (Json.tagged vs) g (.obj [(k, x)]) := by
  obtain ⟨-, y, hy, hs⟩ := h
  refine ⟨nofun, c y, by simp only [Json.tagged, hf, hy, Except.map], ?_⟩
  rw [hg]
  exact same_single hs

/-- A reader that tries another one first, which fails. -/
theorem map_keeps {α β : Type} {f : Json → Except String α} {w : α → Json} {g : β → Json} {c : α → β}
    {j : Json} (h : Keeps f w j) (hg : ∀ y, g (c y) = w y) :
    ∃ x, (f j).map c = .ok x ∧ Same (g x) j := by
  obtain ⟨-, y, hy, hs⟩ := h
  exact ⟨c y, by rw [hy]; rfl, by rw [hg]; exact hs⟩

/-- The variants of a flattened enumeration: whatever member is there is kept as its only member. -/
def VariantKept {α : Type} (toFields : α → List (String × Option Json)) (k : String)
    (f : Json → Except String α) (x : Json) : Prop :=
  ∃ y w, f x = .ok y ∧ toFields y = [(k, some w)] ∧ Same w x

theorem variant_keeps {α β : Type} {toFields : α → List (String × Option Json)} {f : Json → Except String β}
    {w : β → Json} {c : β → α} {k : String} {x : Json} (h : Keeps f w x)
    (hc : ∀ y, toFields (c y) = [(k, some (w y))]) :
    VariantKept toFields k (fun j => (f j).map c) x := by
  obtain ⟨-, y, hy, hs⟩ := h
  exact ⟨c y, w y, by simp only [hy, Except.map], hc y, hs⟩

section
variable {α : Type} {o : List (String × Json)} {vs : List (String × (Json → Except String α))}
  {toFields : α → List (String × Option Json)} {ks : List String}

theorem flat_kept {k : String} {x : Json} {y : α} {w : Json} (hx : (k, x) ∈ o)
    (hne : ∀ k' ∈ ks, k' ≠ k → ∀ x, (k', x) ∉ o) (ht : toFields y = [(k, some w)]) (hs : Same w x) :
    (∀ p ∈ toFields y, FieldKept o p.1 p.2) ∧
      ∀ k' ∈ ks, ∀ x, (k', x) ∈ o → ∃ w, (k', w) ∈ toFields y := by
  rw [ht]
  refine ⟨forall_head ⟨x, hx, hs⟩ nofun, fun k' hk' z hz => ?_⟩
  by_cases e : k' = k
  · subst e
    exact ⟨_, .head _⟩
  · exact absurd hz (hne k' hk' e z)

/-- If exactly one of the names is a member, every member that is a variant is that one. -/
theorem only_variant {C : Context}
    (ho : Valid C (.oneOf (ks.map fun k => .kw (.required [k]))) (.obj o))
    (hvs : ∀ p ∈ vs, p.1 ∉ ks → ∀ x, (p.1, x) ∉ o)
    {p : String × (Json → Except String α)} (hp : p ∈ vs) {x : Json} (hx : (p.1, x) ∈ o) :
    ∀ k' ∈ ks, k' ≠ p.1 → ∀ x, (k', x) ∉ o := by
  obtain ⟨k, hk, -, hne⟩ := oneOf_member ho
  intro k' hk' e
  by_cases e2 : k' = k
  · subst e2
    by_cases e3 : p.1 ∈ ks
    · exact absurd hx (hne p.1 e3 (fun e' => e e'.symm) x)
    · exact absurd hx (hvs p hp e3 x)
  · exact hne k' hk' e2

theorem flatVariant_keeps {C : Context}
    (ho : Valid C (.oneOf (ks.map fun k => .kw (.required [k]))) (.obj o))
    (hks : ∀ k ∈ ks, ∃ p ∈ vs, p.1 = k)
    (hvs : ∀ p ∈ vs, p.1 ∉ ks → ∀ x, (p.1, x) ∉ o)
    (h : ∀ p ∈ vs, ∀ x, (p.1, x) ∈ o → VariantKept toFields p.1 p.2 x) :
    ∃ y, Json.flatVariant o vs = .ok y ∧ (∀ p ∈ toFields y, FieldKept o p.1 p.2) ∧
      ∀ k ∈ ks, ∀ x, (k, x) ∈ o → ∃ w, (k, w) ∈ toFields y := by
  have hex : ∃ p ∈ vs, ∃ x, (p.1, x) ∈ o := by
    obtain ⟨k, hk, ⟨x, hx⟩, -⟩ := oneOf_member ho
    obtain ⟨q, hq, rfl⟩ := hks k hk
    exact ⟨q, hq, x, hx⟩
  suffices ∃ p ∈ vs, ∃ x, (p.1, x) ∈ o ∧ Json.flatVariant o vs = p.2 x by
    obtain ⟨p, hp, x, hx, he⟩ := this
    obtain ⟨y, w, hy, ht, hs⟩ := h p hp x hx
    exact ⟨y, by rw [he, hy], flat_kept hx (only_variant ho hvs hp hx) ht hs⟩
  clear ho hvs h hks
  induction o with
  | nil => obtain ⟨_, _, _, h⟩ := hex; cases h
  | cons m o ih =>
    obtain ⟨k, j⟩ := m
    simp only [Json.flatVariant]
    split
    · rename_i f hf
      exact ⟨(k, f), lookup_variant hf, j, .head _, rfl⟩
    · rename_i hf
      obtain ⟨p, hp, x, hx⟩ := hex
      cases hx with
      | head =>
        have := (List.lookup_eq_none_iff.mp hf) p hp
        simp at this
      | tail _ hx =>
        obtain ⟨q, hq, z, hz, he⟩ := ih ⟨p, hp, x, hx⟩
        exact ⟨q, hq, z, .tail _ hz, he⟩

theorem flatUntagged_keeps {C : Context}
    (ho : Valid C (.oneOf (ks.map fun k => .kw (.required [k]))) (.obj o))
    (hks : ∀ k ∈ ks, ∃ p ∈ vs, p.1 = k)
    (hvs : ∀ p ∈ vs, p.1 ∉ ks → ∀ x, (p.1, x) ∉ o)
    (h : ∀ p ∈ vs, ∀ x, (p.1, x) ∈ o → VariantKept toFields p.1 p.2 x)
    (hn : (o.map Prod.fst).Nodup := by distinct_members) :
    ∃ y, Json.flatUntagged o vs = .ok y ∧ (∀ p ∈ toFields y, FieldKept o p.1 p.2) ∧
      ∀ k ∈ ks, ∀ x, (k, x) ∈ o → ∃ w, (k, w) ∈ toFields y := by
  have hex : ∃ p ∈ vs, ∃ x, (p.1, x) ∈ o := by
    obtain ⟨k, hk, ⟨x, hx⟩, -⟩ := oneOf_member ho
    obtain ⟨q, hq, rfl⟩ := hks k hk
    exact ⟨q, hq, x, hx⟩
  suffices ∃ p ∈ vs, ∃ x, (p.1, x) ∈ o ∧ Json.flatUntagged o vs = p.2 x by
    obtain ⟨p, hp, x, hx, he⟩ := this
    obtain ⟨y, w, hy, ht, hs⟩ := h p hp x hx
    exact ⟨y, by rw [he, hy], flat_kept hx (only_variant ho hvs hp hx) ht hs⟩
  have hr : ∀ p ∈ vs, ∀ x, (p.1, x) ∈ o → CanRead p.2 x := fun p hp x hx =>
    let ⟨y, _, hy, _⟩ := h p hp x hx; ⟨y, hy⟩
  clear ho hvs h hks
  induction vs with
  | nil => obtain ⟨_, h, _⟩ := hex; cases h
  | cons p vs ih =>
    obtain ⟨k, f⟩ := p
    simp only [Json.flatUntagged, Json.get_nodup hn]
    cases hj : o.lookup k with
    | some j =>
      have hm := lookup_some_mem hj
      obtain ⟨y, hy⟩ := hr (k, f) (.head _) j hm
      have hy' : f j = .ok y := hy
      exact ⟨(k, f), .head _, j, hm, by simp only [hy']⟩
    | none =>
      obtain ⟨p, hp, x, hx⟩ := hex
      rcases List.mem_cons.mp hp with rfl | hp
      · obtain ⟨y, hy⟩ := lookup_member hx
        rw [hy] at hj
        cases hj
      · obtain ⟨q, hq, z, hz, he⟩ := ih ⟨p, hp, x, hx⟩ fun p hp => hr p (.tail _ hp)
        exact ⟨q, .tail _ hq, z, hz, he⟩

end

/-! ### Signatures -/

theorem algorithm_keeps {a : String} (h : a ∈ signatureAlgorithms) :
    Keeps Algorithm.ofJson Algorithm.toJson (.str a) := by
  simp only [signatureAlgorithms, List.mem_cons, List.not_mem_nil, or_false] at h
  rcases h with rfl | rfl | rfl | rfl | rfl | rfl | rfl | rfl | rfl | rfl | rfl | rfl | rfl | rfl <;>
    exact ⟨nofun, _, rfl, .str _⟩

theorem signature_keeps [F32Format] {F : Formats} {v : SpecVersion} {n : Nat} {x : Json}
    (h : Valid (schemaContext F v) SchemaJsf.jsfSignature x) (hs : Clean n x)
    (hk : ∃ p a, x = .obj p ∧ ("algorithm", .str a) ∈ p ∧ a ∈ signatureAlgorithms)
    (hl : ∀ p, x = .obj p → OnlyHas ["algorithm", "value"] p) :
    Keeps Signature.ofJson Signature.toJson x := by
  obtain ⟨o, a, rfl, ha, hm⟩ := hk
  have hc := hl o rfl
  obtain ⟨s, hm', h⟩ := (valid_part h (.tail _ (.head _))).oneOf_mem
  have hv : Valid (schemaContext F v) SchemaJsf.jsfSigner (.obj o) := by
    simp only [List.mem_cons, List.not_mem_nil, or_false] at hm'
    rcases hm' with rfl | rfl | rfl
    · have := valid_closed (valid_part h (.head _)) ha
      simp at this
    · have := valid_closed (valid_part h (.head _)) ha
      simp at this
    · exact valid_unref h (by cases v <;> rfl)
  have hsig : Keeps Signer.ofJson Signer.toJson (.obj o) := by
    refine object_keeps ?_
    refine bind_keeps (req_keeps (g := Algorithm.toJson) ⟨_, ha⟩ fun x hx => ?_) fun _ f1 => ?_
    · rw [nodup_unique hs.nodup hx ha]
      exact algorithm_keeps hm
    refine bind_keeps (req_keeps (g := Json.str) (valid_required (valid_part hv (.tail _ (.head _))) (by simp))
      fun x hx => ?_) fun _ f2 => ?_
    · exact string_keeps (type_string (valid_property (valid_part hv (.tail _ (.tail _ (.tail _ (.head _)))))
        (by simp) hx))
    exact ⟨_, rfl, same_mk hs.nodup (forall_head f1 (forall_head f2 nofun))
      (all_written (ks := ["algorithm", "value"]) hc no_members rfl (by decide +kernel))⟩
  obtain ⟨-, y, hy, hs⟩ := hsig
  exact ⟨nofun, .single y, by simp only [Signature.ofJson, Json.array, hy, Except.map], hs⟩

end Cdx
