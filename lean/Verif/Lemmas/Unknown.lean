import Verif.Spec.Unknown
import Verif.Lemmas.Json

/-!
# Lemmas on members of JSON objects with unknown names
-/

set_option linter.unusedSectionVars false

namespace Cdx

open Spec

/-- A name of a member that the format has. -/
class KnownMember (k : String) : Prop where
  mem : k ∈ knownMembers

/-- A reader that ignores members with unknown names. -/
class Tolerant {α : Type} (f : Json → Except String α) : Prop where
  eq : ∀ {a b : Json}, Extended a b → f a = f b

/-- The same for a reader of some of the members of an object. -/
class TolerantFields {α : Type} (f : List (String × Json) → Except String α) : Prop where
  eq : ∀ {o p : List (String × Json)}, Extended (.obj o) (.obj p) → f o = f p

section
variable {α β : Type} {f : Json → Except String α} {o p : List (String × Json)} {k : String}

theorem Spec.Extended.not_null {x y : Json} (h : Extended x y) : x ≠ .null ∧ y ≠ .null := by
  cases h <;> exact ⟨nofun, nofun⟩

theorem get_insert {before after : List (String × Json)} {k' : String} {x : Json} (h : k' ≠ k) :
    Json.get (before ++ (k', x) :: after) k = Json.get (before ++ after) k := by
  unfold Json.get
  have : ((k', x).1 == k) = false := beq_eq_false_iff_ne.mpr h
  rw [List.filter_append, List.filter_append, List.filter_cons, this]
  rfl

theorem Spec.Extended.get [hk : KnownMember k] (h : Extended (.obj o) (.obj p)) :
    Json.get o k = Json.get p k ∨
      ∃ x y, Json.get o k = .ok (some x) ∧ Json.get p k = .ok (some y) ∧ Extended x y := by
  generalize ea : Json.obj o = a at h
  generalize eb : Json.obj p = b at h
  cases h with
  | @added before after k' x hk' _ =>
    cases ea
    cases eb
    have hne : k' ≠ k := fun e => hk' (e ▸ hk.mem)
    exact .inl (get_insert hne).symm
  | @changed before after k' x y hk' =>
    cases ea
    cases eb
    have hne : k' ≠ k := fun e => hk' (e ▸ hk.mem)
    rw [get_insert hne, get_insert hne]
    exact .inl rfl
  | item => cases ea
  | @member before after k' x y hxy =>
    cases ea
    cases eb
    by_cases e : k' = k
    · subst e
      unfold Json.get
      rw [List.filter_append, List.filter_append, List.filter_cons, List.filter_cons]
      simp only [beq_self_eq_true, if_true]
      cases List.filter (fun p => p.1 == k') before with
      | nil =>
        cases List.filter (fun p => p.1 == k') after with
        | nil => exact .inr ⟨x, y, rfl, rfl, hxy⟩
        | cons => exact .inl rfl
      | cons m l =>
        cases l with
        | nil => exact .inl rfl
        | cons => exact .inl rfl
    · rw [get_insert e, get_insert e]
      exact .inl rfl

theorem req_tolerant [KnownMember k] [Tolerant f] (h : Extended (.obj o) (.obj p)) :
    Json.req o k f = Json.req p k f := by
  unfold Json.req
  rcases h.get (k := k) with e | ⟨x, y, e1, e2, hr⟩
  · rw [e]
  · rw [e1, e2]
    exact Tolerant.eq hr

theorem opt_tolerant [KnownMember k] [Tolerant f] (h : Extended (.obj o) (.obj p)) :
    Json.opt o k f = Json.opt p k f := by
  unfold Json.opt
  rcases h.get (k := k) with e | ⟨x, y, e1, e2, hr⟩
  · rw [e]
  · rw [e1, e2]
    have hf := Tolerant.eq (f := f) hr
    cases hr <;> simp only [hf]

theorem array_tolerant {l m : List Json} [Tolerant f] (h : Extended (.arr l) (.arr m)) :
    l.mapM f = m.mapM f := by
  generalize ea : Json.arr l = a at h
  generalize eb : Json.arr m = b at h
  cases h with
  | item h =>
    cases ea
    cases eb
    rw [List.mapM_append, List.mapM_append, List.mapM_cons, List.mapM_cons, Tolerant.eq (f := f) h]
  | _ => cases ea

instance [Tolerant f] : Tolerant (Json.array f) where
  eq h := by
    cases h with
    | item h => exact array_tolerant (.item h)
    | _ => rfl

theorem orEmpty_tolerant [KnownMember k] [Tolerant f] (h : Extended (.obj o) (.obj p)) :
    Json.orEmpty o k f = Json.orEmpty p k f := by
  unfold Json.orEmpty
  rcases h.get (k := k) with e | ⟨x, y, e1, e2, hr⟩
  · rw [e]
  · rw [e1, e2]
    exact Tolerant.eq (f := Json.array f) hr

instance : Tolerant Json.string where eq h := by cases h <;> rfl
instance : Tolerant Json.boolean where eq h := by cases h <;> rfl
instance : Tolerant Json.u32 where eq h := by cases h <;> rfl
instance [F32Format] : Tolerant Json.f32 where eq h := by cases h <;> rfl
instance (new : String → α) : Tolerant (Json.enum new) where eq h := by cases h <;> rfl

instance [Tolerant f] (g : α → β) : Tolerant fun j => (f j).map g where
  eq h := by rw [Tolerant.eq (f := f) h]

/-- A reader of an object ignores unknown members if what it does with the members does. -/
theorem fields_tolerant {g : List (String × Json) → Except String α} {a b : Json}
    (h : Extended a b) (hg : ∀ o p, Extended (.obj o) (.obj p) → g o = g p) :
    (do let o ← a.fields; g o) = (do let o ← b.fields; g o) := by
  cases h with
  | added h1 h2 => exact hg _ _ (.added h1 h2)
  | changed h1 => exact hg _ _ (.changed h1)
  | member h1 => exact hg _ _ (.member h1)
  | item => rfl

/-- All variants ignore unknown members. -/
inductive AllTolerant : List (String × (Json → Except String α)) → Prop
  | nil : AllTolerant []
  | cons {k : String} {f : Json → Except String α} {vs : List (String × (Json → Except String α))} :
    KnownMember k → Tolerant f → AllTolerant vs → AllTolerant ((k, f) :: vs)

theorem AllTolerant.lookup {vs : List (String × (Json → Except String α))} (h : AllTolerant vs)
    (e : vs.lookup k = some f) : k ∈ knownMembers ∧ Tolerant f := by
  induction h with
  | nil => cases e
  | cons hk hf _ ih =>
    rw [List.lookup_cons] at e
    split at e
    · rename_i e'
      cases e
      exact ⟨eq_of_beq e' ▸ hk.mem, hf⟩
    · exact ih e

theorem flatUntagged_tolerant {vs : List (String × (Json → Except String α))} (hv : AllTolerant vs)
    (h : Extended (.obj o) (.obj p)) : Json.flatUntagged o vs = Json.flatUntagged p vs := by
  induction hv with
  | nil => rfl
  | @cons k f vs hk hf _ ih =>
    simp only [Json.flatUntagged]
    rcases h.get (k := k) with e | ⟨x, y, e1, e2, hr⟩
    · rw [e, ih]
    · rw [e1, e2]
      simp only
      rw [hf.eq hr, ih]

theorem flatVariant_unknown {vs : List (String × (Json → Except String α))} (hv : AllTolerant vs)
    {before after : List (String × Json)} {x : Json} (hk : k ∉ knownMembers) :
    Json.flatVariant (before ++ (k, x) :: after) vs = Json.flatVariant (before ++ after) vs := by
  induction before with
  | nil =>
    simp only [List.nil_append, Json.flatVariant]
    cases e : vs.lookup k with
    | none => rfl
    | some f => exact absurd (hv.lookup e).1 hk
  | cons m before ih => simp only [List.cons_append, Json.flatVariant, ih]

theorem flatVariant_member {vs : List (String × (Json → Except String α))} (hv : AllTolerant vs)
    {before after : List (String × Json)} {x y : Json} (h : Extended x y) :
    Json.flatVariant (before ++ (k, x) :: after) vs = Json.flatVariant (before ++ (k, y) :: after) vs := by
  induction before with
  | nil =>
    simp only [List.nil_append, Json.flatVariant]
    cases e : vs.lookup k with
    | none => rfl
    | some f => exact (hv.lookup e).2.eq h
  | cons m before ih => simp only [List.cons_append, Json.flatVariant, ih]

theorem flatVariant_tolerant {vs : List (String × (Json → Except String α))} (hv : AllTolerant vs)
    (h : Extended (.obj o) (.obj p)) : Json.flatVariant o vs = Json.flatVariant p vs := by
  generalize ea : Json.obj o = a at h
  generalize eb : Json.obj p = b at h
  cases h with
  | added hk => cases ea; cases eb; exact (flatVariant_unknown hv hk).symm
  | changed hk => cases ea; cases eb; rw [flatVariant_unknown hv hk, flatVariant_unknown hv hk]
  | item => cases ea
  | member h => cases ea; cases eb; exact flatVariant_member hv h

/-- What a reader does that wants an object with one member of a known name. -/
theorem single_tolerant {f : Json → Except String α} {e : String}
    (h0 : f (.obj []) = .error e) (h2 : ∀ m n l, f (.obj (m :: n :: l)) = .error e)
    (h1 : ∀ k x, k ∉ tagMembers → f (.obj [(k, x)]) = .error e)
    (hm : ∀ k x y, Extended x y → f (.obj [(k, x)]) = f (.obj [(k, y)]))
    (ha : ∀ l m, f (.arr l) = f (.arr m)) : Tolerant f where
  eq h := by
    have ht : ∀ k, k ∉ knownMembers → k ∉ tagMembers := fun k hk ht =>
      hk ((by decide : ∀ k ∈ tagMembers, k ∈ knownMembers) k ht)
    have long : ∀ before after : List (String × Json), ∀ n, before ++ after ≠ [] →
        f (.obj (before ++ n :: after)) = .error e := by
      intro before after n hn
      match before, after with
      | [], m :: after => exact h2 ..
      | [m], after => exact h2 ..
      | m :: n :: before, after => exact h2 ..
    cases h with
    | @added before after k x hk hn =>
      match hb : before ++ after with
      | [] =>
        have h1' := List.append_eq_nil_iff.mp hb
        rw [h1'.1, h1'.2, h0]
        exact (h1 k x (ht k hk)).symm
      | [(k', y)] =>
        rw [long before after (k, x) (by simp [hb])]
        refine h1 k' y fun hk' => hn ⟨k', hk', by simp [hb], ?_⟩
        rw [hb]
        simp
      | m :: n :: l => rw [h2, long before after (k, x) (by simp [hb])]
    | @changed before after k x y hk =>
      by_cases hb : before ++ after = []
      · have h1' := List.append_eq_nil_iff.mp hb
        rw [h1'.1, h1'.2]
        exact (h1 k x (ht k hk)).trans (h1 k y (ht k hk)).symm
      · rw [long _ _ _ hb, long _ _ _ hb]
    | item => exact ha ..
    | @member before after k x y hxy =>
      by_cases hb : before ++ after = []
      · have h1' := List.append_eq_nil_iff.mp hb
        rw [h1'.1, h1'.2]
        exact hm k x y hxy
      · rw [long _ _ _ hb, long _ _ _ hb]

theorem tagged_tolerant {vs : List (String × (Json → Except String α))} (hv : AllTolerant vs)
    (ht : ∀ k ∈ vs.map Prod.fst, k ∈ tagMembers) : Tolerant (Json.tagged vs) := by
  refine single_tolerant (e := "unknown variant") rfl (fun _ _ _ => rfl) (fun k x hk => ?_) (fun k x y h => ?_)
    fun _ _ => rfl
  · simp only [Json.tagged]
    cases e : vs.lookup k with
    | none => rfl
    | some f => 
      refine absurd (ht k ?_) hk
      apply Classical.byContradiction
      intro hn
      rw [List.lookup_eq_none_iff.mpr] at e
      · cases e
      · intro q hq
        have : k ≠ q.1 := fun e => hn (e ▸ List.mem_map_of_mem hq)
        simpa using this
  · simp only [Json.tagged]
    cases e : vs.lookup k with
    | none => rfl
    | some f => exact (hv.lookup e).2.eq h

theorem ofFields_tolerant {f : List (String × Json) → Except String α} [TolerantFields f]
    (h : Extended (.obj o) (.obj p)) : f o = f p := TolerantFields.eq h

end

/-- All variants in a list of readers ignore unknown members. -/
syntax "tolerant_variants" : tactic

macro_rules
  | `(tactic| tolerant_variants) => `(tactic|
    repeat' first | exact AllTolerant.nil | refine AllTolerant.cons inferInstance inferInstance ?_)

/-- The readers of members give the same. -/
syntax "tolerant_fields " ident : tactic

macro_rules
  | `(tactic| tolerant_fields $h) => `(tactic|
    simp only [opt_tolerant $h, req_tolerant $h, orEmpty_tolerant $h])

end Cdx
