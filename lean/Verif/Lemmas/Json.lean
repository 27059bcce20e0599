import Verif.Model.Json
import Verif.Spec.Xml
import Verif.Lemmas.Strings

set_option linter.unusedSectionVars false
set_option linter.unusedSimpArgs false

/-!
# Lemmas on JSON values
-/

namespace Cdx.Json

variable {α β : Type}

theorem lookup_mkFields_none : ∀ {l : List (String × Option Json)} {k : String},
    k ∉ l.map (·.1) → (mkFields l).lookup k = none
  | [], _, _ => rfl
  | (a, x) :: l, k, h => by
    simp only [List.map_cons, List.mem_cons, not_or] at h
    cases x with
    | none => exact lookup_mkFields_none (l := l) h.2
    | some j =>
      show List.lookup k ((a, j) :: mkFields l) = none
      rw [List.lookup_cons, beq_eq_false_iff_ne.mpr h.1]
      exact lookup_mkFields_none h.2

theorem lookup_mkFields : ∀ {l : List (String × Option Json)} {k : String} {x : Option Json},
    (l.map (·.1)).Nodup → (k, x) ∈ l → (mkFields l).lookup k = x
  | [], _, _, _, h => nomatch h
  | (a, y) :: l, k, x, hn, h => by
    rw [List.map_cons, List.nodup_cons] at hn
    cases h with
    | head =>
      cases y with
      | none => exact lookup_mkFields_none (l := l) hn.1
      | some j =>
        show List.lookup a ((a, j) :: mkFields l) = some j
        rw [List.lookup_cons, beq_self_eq_true]
    | tail _ h =>
      have hne : k ≠ a := fun e => hn.1 (e ▸ List.mem_map_of_mem (f := (·.1)) h)
      cases y with
      | none => exact lookup_mkFields (l := l) hn.2 h
      | some j =>
        show List.lookup k ((a, j) :: mkFields l) = x
        rw [List.lookup_cons, beq_eq_false_iff_ne.mpr hne]
        exact lookup_mkFields hn.2 h

theorem get_nil {k : String} : get [] k = .ok none := rfl

theorem get_absent {o : List (String × Json)} {k : String} (h : k ∉ o.map (·.1)) :
    get o k = .ok none := by
  have : o.filter (fun p => p.1 == k) = [] := by
    rw [List.filter_eq_nil_iff]
    intro p hp e
    exact h (List.mem_map.2 ⟨p, hp, eq_of_beq e⟩)
  rw [get, this]

theorem get_nodup : ∀ {o : List (String × Json)} {k : String}, (o.map (·.1)).Nodup →
    get o k = .ok (o.lookup k)
  | [], _, _ => rfl
  | (a, x) :: o, k, h => by
    rw [List.map_cons, List.nodup_cons] at h
    rw [List.lookup_cons]
    by_cases e : k = a
    · subst e
      have : o.filter (fun p => p.1 == k) = [] := by
        rw [List.filter_eq_nil_iff]
        intro p hp e
        exact h.1 (List.mem_map.2 ⟨p, hp, eq_of_beq e⟩)
      simp only [get, List.filter_cons, beq_self_eq_true, if_true, this]
    · have e1 : (a == k) = false := beq_eq_false_iff_ne.mpr (Ne.symm e)
      have e2 : (k == a) = false := beq_eq_false_iff_ne.mpr e
      rw [e2]
      have := get_nodup (k := k) h.2
      simp only [get, List.filter_cons, e1] at this ⊢
      exact this

theorem get_mem {o : List (String × Json)} {k : String} {j : Json} (h : get o k = .ok (some j)) :
    (k, j) ∈ o := by
  unfold get at h
  split at h
  · exact nomatch h
  · rename_i p hp
    have hm : p ∈ o.filter (fun p => p.1 == k) := by rw [hp]; exact .head _
    rw [List.mem_filter] at hm
    cases h
    have e : p.1 = k := eq_of_beq hm.2
    subst e
    exact hm.1
  · exact nomatch h

theorem get_none {o : List (String × Json)} {k : String} {j : Json} (h : get o k = .ok none) :
    (k, j) ∉ o := by
  unfold get at h
  split at h
  · rename_i hp
    intro hm
    have : (k, j) ∈ o.filter (fun p => p.1 == k) := List.mem_filter.2 ⟨hm, beq_self_eq_true k⟩
    rw [hp] at this
    exact nomatch this
  · exact nomatch h
  · exact nomatch h

theorem mkFields_keys : ∀ {l : List (String × Option Json)} {k : String},
    k ∈ (mkFields l).map (·.1) → k ∈ l.map (·.1)
  | (a, none) :: l, k, h => .tail _ (mkFields_keys (l := l) h)
  | (a, some j) :: l, k, h => by
    rcases List.mem_cons.mp (show k ∈ a :: (mkFields l).map (·.1) from h) with rfl | h
    · exact .head _
    · exact .tail _ (mkFields_keys h)

theorem mkFields_nodup : ∀ {l : List (String × Option Json)}, (l.map (·.1)).Nodup →
    ((mkFields l).map (·.1)).Nodup
  | [], _ => .nil
  | (a, none) :: l, h => mkFields_nodup (l := l) (List.nodup_cons.mp h).2
  | (a, some j) :: l, h => by
    rw [List.map_cons, List.nodup_cons] at h
    exact List.nodup_cons.mpr ⟨fun hm => h.1 (mkFields_keys hm), mkFields_nodup h.2⟩

theorem get_mkFields_none {l : List (String × Option Json)} {k : String} (h : k ∉ l.map (·.1)) :
    get (mkFields l) k = .ok none := get_absent fun hm => h (mkFields_keys hm)

theorem get_mkFields {l : List (String × Option Json)} {k : String} {x : Option Json}
    (hn : (l.map (·.1)).Nodup) (h : (k, x) ∈ l) : get (mkFields l) k = .ok x := by
  rw [get_nodup (mkFields_nodup hn), lookup_mkFields hn h]

/-- A required member is read back. -/
theorem req_mk {l : List (String × Option Json)} {k : String} {f : Json → Except String α} {j : Json}
    {x : α} (hn : (l.map (·.1)).Nodup) (hl : (k, some j) ∈ l) (h : f j = .ok x) :
    req (mkFields l) k f = .ok x := by
  rw [req, get_mkFields hn hl]
  exact h

/-- An optional member is read back. -/
theorem opt_mk {l : List (String × Option Json)} {k : String} {f : Json → Except String β}
    {g : α → Json} {x : Option α} {a : α → β} (hn : (l.map (·.1)).Nodup)
    (hl : (k, x.map g) ∈ l) (hg : ∀ y, x = some y → g y ≠ .null)
    (h : ∀ y, x = some y → f (g y) = .ok (a y)) : opt (mkFields l) k f = .ok (x.map a) := by
  rw [opt, get_mkFields hn hl]
  cases x with
  | none => rfl
  | some y =>
    have h1 := hg y rfl
    have h2 := h y rfl
    simp only [Option.map_some]
    rw [h2]
    rfl

/-- An optional member is read back unchanged. -/
theorem opt_id {l : List (String × Option Json)} {k : String} {f : Json → Except String α}
    {g : α → Json} {x : Option α} (hn : (l.map (·.1)).Nodup)
    (hl : (k, x.map g) ∈ l) (hg : ∀ y, x = some y → g y ≠ .null)
    (h : ∀ y, x = some y → f (g y) = .ok y) : opt (mkFields l) k f = .ok x := by
  have := opt_mk (a := id) hn hl hg h
  rwa [Option.map_id] at this

/-- An absent member. -/
theorem opt_absent {l : List (String × Option Json)} {k : String} {f : Json → Except String α}
    (hn : k ∉ l.map (·.1)) : opt (mkFields l) k f = .ok none := by
  rw [opt, get_mkFields_none hn]

/-- An optional member that is written as `null` when absent is read back. -/
theorem null_mk {l : List (String × Option Json)} {k : String} {f : Json → Except String β}
    {g : α → Json} {x : Option α} {a : α → β} (hn : (l.map (·.1)).Nodup)
    (hl : (k, some (orNull g x)) ∈ l) (hg : ∀ y, x = some y → g y ≠ .null)
    (h : ∀ y, x = some y → f (g y) = .ok (a y)) : opt (mkFields l) k f = .ok (x.map a) := by
  rw [opt, get_mkFields hn hl]
  cases x with
  | none => rfl
  | some y =>
    have h1 := hg y rfl
    have h2 := h y rfl
    simp only [orNull, Option.map_some]
    rw [h2]
    rfl

theorem null_id {l : List (String × Option Json)} {k : String} {f : Json → Except String α}
    {g : α → Json} {x : Option α} (hn : (l.map (·.1)).Nodup)
    (hl : (k, some (orNull g x)) ∈ l) (hg : ∀ y, x = some y → g y ≠ .null)
    (h : ∀ y, x = some y → f (g y) = .ok y) : opt (mkFields l) k f = .ok x := by
  have := null_mk (a := id) hn hl hg h
  rwa [Option.map_id] at this

theorem map_ok {m : Except String α} {c : α → β} {y : α} (h : m = .ok y) : m.map c = .ok (c y) := by
  rw [h]
  rfl

/-- A member named after the variant of a flattened enumeration, if no other member is. -/
theorem flat_hit : ∀ {l : List (String × Option Json)} {k : String} {f : Json → Except String α}
    {vs : List (String × (Json → Except String α))} {j : Json}, (k, some j) ∈ l →
    vs.lookup k = some f → (∀ k' ∈ l.map (·.1), k' = k ∨ vs.lookup k' = none) →
    (l.map (·.1)).Nodup → flatVariant (mkFields l) vs = f j
  | [], _, _, _, _, hl, _, _, _ => nomatch hl
  | (a, none) :: l, k, f, vs, j, hl, hf, ho, hn => by
    have hl' : (k, some j) ∈ l := by
      cases hl with
      | tail _ h => exact h
    exact flat_hit (l := l) hl' hf (fun k' hk' => ho k' (.tail _ hk')) (List.nodup_cons.mp hn).2
  | (a, some x) :: l, k, f, vs, j, hl, hf, ho, hn => by
    rw [List.map_cons, List.nodup_cons] at hn
    show flatVariant ((a, x) :: mkFields l) vs = f j
    rw [flatVariant]
    cases hl with
    | head => rw [hf]
    | tail _ hl =>
      rcases ho a (.head _) with e | e
      · subst e
        exact absurd (List.mem_map.2 ⟨_, hl, rfl⟩) hn.1
      · rw [e]
        exact flat_hit hl hf (fun k' hk' => ho k' (.tail _ hk')) hn.2

theorem flat_head {l : List (String × Option Json)} {k : String} {f : Json → Except String α}
    {vs : List (String × (Json → Except String α))} {j : Json} {x : α} (hf : vs.lookup k = some f)
    (h : f j = .ok x) : flatVariant (mkFields ((k, some j) :: l)) vs = .ok x := by
  show flatVariant ((k, j) :: mkFields l) vs = .ok x
  rw [flatVariant, hf]
  exact h

theorem untagged_miss {l : List (String × Option Json)} {k : String} {f : Json → Except String α}
    {vs : List (String × (Json → Except String α))} (hk : k ∉ l.map (·.1)) :
    flatUntagged (mkFields l) ((k, f) :: vs) = flatUntagged (mkFields l) vs := by
  rw [flatUntagged, get_mkFields_none hk]

theorem untagged_hit {l : List (String × Option Json)} {k : String} {f : Json → Except String α}
    {vs : List (String × (Json → Except String α))} {j : Json} {x : α} (hn : (l.map (·.1)).Nodup)
    (hl : (k, some j) ∈ l) (h : f j = .ok x) :
    flatUntagged (mkFields l) ((k, f) :: vs) = .ok x := by
  rw [flatUntagged, get_mkFields hn hl]
  simp only [h]

theorem mapM_map {γ : Type} {f : β → Except String γ} {g : α → β} {a : α → γ} : ∀ {l : List α},
    (∀ x ∈ l, f (g x) = .ok (a x)) → (l.map g).mapM f = .ok (l.map a)
  | [], _ => rfl
  | x :: l, h => by
    rw [List.map_cons, List.mapM_cons, h x (.head _), mapM_map fun y hy => h y (.tail _ hy)]
    rfl

theorem array_ofList {f : Json → Except String β} {g : α → Json} {l : List α} {a : α → β}
    (h : ∀ x ∈ l, f (g x) = .ok (a x)) : array f (ofList g l) = .ok (l.map a) := mapM_map h

theorem array_id {f : Json → Except String α} {g : α → Json} {l : List α}
    (h : ∀ x ∈ l, f (g x) = .ok x) : array f (ofList g l) = .ok l := by
  have := array_ofList (a := id) h
  rwa [List.map_id] at this

theorem orEmpty_id {l : List (String × Option Json)} {k : String} {f : Json → Except String α}
    {g : α → Json} {x : List α} (hn : (l.map (·.1)).Nodup) (hm : (k, unlessEmpty g x) ∈ l)
    (h : ∀ y ∈ x, f (g y) = .ok y) : orEmpty (mkFields l) k f = .ok x := by
  rw [orEmpty, get_mkFields hn hm]
  cases x with
  | nil => rfl
  | cons a x => exact array_id h

theorem enum_rt {display : α → String} {new : String → α} {x : α} (h : Stable display new x) :
    enum new (ofEnum display x) = .ok x := by
  show Except.ok (new (display x)) = _
  rw [show new (display x) = x from h]

theorem u32_rt {n : Nat} (h : n < 2 ^ 32) : u32 (.nat n) = .ok n := by
  simp only [u32, if_pos h]

theorem f32_rt [F32Format] {x : F32} (h : x.isFinite = true) : f32 (ofF32 x) = .ok x := by
  simp only [ofF32, h, if_true, f32]

theorem f32_ne_null {x : F32} (h : x.isFinite = true) : ofF32 x ≠ .null := by
  simp [ofF32, h]

theorem fields_mk (l : List (String × Option Json)) : fields (mk l) = .ok (mkFields l) := rfl

theorem mk_ne_null (l : List (String × Option Json)) : mk l ≠ .null := by simp [mk]

theorem ofList_ne_null {g : α → Json} {l : List α} : ofList g l ≠ .null := by simp [ofList]

theorem bool_ne_null {b : Bool} : Json.bool b ≠ .null := by simp

theorem nat_ne_null {n : Nat} : Json.nat n ≠ .null := by simp

theorem str_ne_null {s : String} : Json.str s ≠ .null := by simp

end Cdx.Json
