import Verif.Spec.Readable
import Verif.Lemmas.Schema
import Verif.Lemmas.Json
import Verif.Model.Format.Bom

/-!
# Lemmas: what a reader can count on in a document that conforms to the schema
-/

namespace Cdx

open Spec

set_option linter.unusedVariables false

/-- The reader succeeds. -/
def CanRead {α : Type} (f : Json → Except String α) (j : Json) : Prop := ∃ x, f j = .ok x

/-- What the theorem about readers assumes beside the schema, for a value inside the document. -/
structure Sane (n : Nat) (j : Json) : Prop where
  unique : j.Unique
  plain : Everywhere Readable j
  within : Within n j

theorem Sane.nodup {n : Nat} {o : List (String × Json)} (h : Sane n (.obj o)) : (o.map Prod.fst).Nodup := by
  cases h.unique with
  | obj h _ => exact h

/-- No name occurs twice among the members of an object. -/
syntax "distinct_members" : tactic

macro_rules
  | `(tactic| distinct_members) => `(tactic| assumption)

macro_rules
  | `(tactic| distinct_members) => `(tactic| exact Sane.nodup (by assumption))

theorem Spec.Within.succ {n : Nat} {j : Json} (h : Within n j) : Within (n + 1) j := by
  induction h with
  | null => exact .null
  | bool => exact .bool
  | nat => exact .nat
  | float => exact .float
  | other => exact .other
  | str => exact .str
  | arr _ ih => exact .arr ih
  | obj _ ih => exact .obj ih

theorem Sane.succ {n : Nat} {j : Json} (h : Sane n j) : Sane (n + 1) j := ⟨h.1, h.2, h.3.succ⟩

section
variable {n : Nat} {o : List (String × Json)} {l : List Json} {k : String} {x : Json}

theorem Sane.down (h : Sane (n + 1) (.obj o)) (m : (k, x) ∈ o) : Sane n x := by
  obtain ⟨hu, hp, hw⟩ := h
  cases hu with | obj _ hu =>
  cases hp with | obj _ hp =>
  cases hw with | obj hw => exact ⟨hu _ m, hp _ m, hw _ m⟩

theorem Sane.downItem (h : Sane (n + 1) (.arr l)) (m : x ∈ l) : Sane n x := by
  obtain ⟨hu, hp, hw⟩ := h
  cases hu with | arr hu =>
  cases hp with | arr hp =>
  cases hw with | arr hw => exact ⟨hu _ m, hp _ m, hw _ m⟩

theorem Sane.member (h : Sane n (.obj o)) (m : (k, x) ∈ o) : Sane n x := by
  cases n with
  | zero => cases h.3
  | succ n => exact (h.down m).succ

theorem Sane.item (h : Sane n (.arr l)) (m : x ∈ l) : Sane n x := by
  cases n with
  | zero => cases h.3
  | succ n => exact (h.downItem m).succ

theorem Sane.readable (h : Sane n (.obj o)) : Readable o := by
  cases h.2 with | obj h _ => exact h

end

section
variable {C : Context} {s t : Schema} {l : List Schema} {ps : List (String × Schema)} {ks : List String}
  {o : List (String × Json)} {k : String} {x j : Json} {ty : JsonType}

theorem valid_part (h : Valid C (.allOf l) j) (m : s ∈ l) : Valid C s j := valid_allOf.mp h s m

theorem valid_unref {name : String} (h : Valid C (.ref name) j) (e : C.defs.lookup name = some s) :
    Valid C s j := by
  cases h with
  | ref h1 h2 =>
    rw [h1] at e
    cases e
    exact h2

theorem valid_property (h : Valid C (.properties ps) (.obj o)) (m : (k, s) ∈ ps) (hx : (k, x) ∈ o) :
    Valid C s x := by
  cases h with
  | properties h => exact h _ rfl _ _ _ m hx

theorem valid_type (h : Valid C (.kw (.type ty)) j) : HasType ty j := valid_kw.mp h

theorem type_object (h : Valid C (.kw (.type .object)) j) : ∃ o, j = .obj o := by
  have := valid_type h
  cases j <;> simp_all [HasType]

theorem type_array (h : Valid C (.kw (.type .array)) j) : ∃ l, j = .arr l := by
  have := valid_type h
  cases j <;> simp_all [HasType]

theorem type_string (h : Valid C (.kw (.type .string)) j) : ∃ s, j = .str s := by
  have := valid_type h
  cases j <;> simp_all [HasType]

theorem enum_string {l : List String} (h : Valid C (.kw (.enum l)) j) : ∃ s, j = .str s := by
  obtain ⟨s, _, h⟩ := valid_kw.mp h
  exact ⟨s, h⟩

theorem type_number (h : Valid C (.kw (.type .number)) j) : IsNumber j := valid_type h

theorem integer_number (h : Valid C (.kw (.type .integer)) j) : IsNumber j := by
  have := valid_type h
  cases j <;> simp_all [HasType, IsNumber]

theorem valid_required (h : Valid C (.kw (.required ks)) (.obj o)) (m : k ∈ ks) : ∃ x, (k, x) ∈ o :=
  valid_kw.mp h k m

theorem valid_closed (h : Valid C (.kw (.closed ks)) (.obj o)) (m : (k, x) ∈ o) : k ∈ ks :=
  valid_kw.mp h k x m

theorem anyOf_two (h : Valid C (.anyOf [s, t]) j) : Valid C s j ∨ Valid C t j := by
  obtain ⟨u, hu, hv⟩ := valid_anyOf.mp h
  simp only [List.mem_cons, List.not_mem_nil, or_false] at hu
  rcases hu with rfl | rfl <;> simp [hv]

theorem oneOf_two (h : Valid C (.oneOf [s, t]) j) : Valid C s j ∨ Valid C t j := by
  obtain ⟨u, hu, hv⟩ := h.oneOf_mem
  simp only [List.mem_cons, List.not_mem_nil, or_false] at hu
  rcases hu with rfl | rfl <;> simp [hv]

end

theorem Spec.Has.lookup {k : String} {o : List (String × Json)} (h : Has k (.obj o)) :
    ∃ x, (k, x) ∈ o := by
  obtain ⟨_, x, e, m⟩ := h
  cases e
  exact ⟨x, m⟩

section
variable {α β : Type} {f : Json → Except String α} {o : List (String × Json)} {k : String}

theorem bind_reads {m : Except String α} {g : α → Except String β} (h : ∃ x, m = .ok x)
    (h' : ∀ x, ∃ y, g x = .ok y) : ∃ y, (m >>= g) = .ok y := by
  obtain ⟨x, rfl⟩ := h
  exact h' x

theorem map_reads {m : Except String α} {g : α → β} (h : ∃ x, m = .ok x) :
    ∃ y, m.map g = .ok y := by
  obtain ⟨x, rfl⟩ := h
  exact ⟨_, rfl⟩

theorem fields_reads {g : List (String × Json) → Except String β} (h : ∃ y, g o = .ok y) :
    ∃ y, ((Json.obj o).fields >>= g) = .ok y := h

theorem lookup_some_mem {x : Json} (h : o.lookup k = some x) : (k, x) ∈ o := by
  induction o with
  | nil => cases h
  | cons p o ih =>
    obtain ⟨k', y⟩ := p
    simp only [List.lookup] at h
    by_cases e : k = k'
    · subst e
      simp only [beq_self_eq_true] at h
      cases h
      simp
    · have : (k == k') = false := by simpa using e
      rw [this] at h
      exact List.mem_cons_of_mem _ (ih h)

theorem lookup_member {x : Json} (h : (k, x) ∈ o) : ∃ y, o.lookup k = some y := by
  induction o with
  | nil => cases h
  | cons p o ih =>
    obtain ⟨k', y⟩ := p
    simp only [List.lookup]
    by_cases e : k = k'
    · subst e
      exact ⟨y, by simp⟩
    · have hb : (k == k') = false := by simpa using e
      rw [hb]
      rcases List.mem_cons.mp h with h | h
      · cases h
        exact absurd rfl e
      · exact ih h

theorem opt_reads (h : ∀ x, (k, x) ∈ o → CanRead f x)
    (hn : (o.map Prod.fst).Nodup := by distinct_members) :
    ∃ y, Json.opt o k f = .ok y := by
  unfold Json.opt
  rw [Json.get_nodup hn]
  split
  · exact ⟨_, rfl⟩
  · exact ⟨_, rfl⟩
  · rename_i j hj hl
    obtain ⟨y, hy⟩ := h j (lookup_some_mem (Except.ok.inj hl))
    exact ⟨some y, by rw [hy]; rfl⟩
  · rename_i hl
    exact nomatch hl

theorem req_reads (hm : ∃ x, (k, x) ∈ o) (h : ∀ x, (k, x) ∈ o → CanRead f x)
    (hn : (o.map Prod.fst).Nodup := by distinct_members) :
    ∃ y, Json.req o k f = .ok y := by
  obtain ⟨x, hx⟩ := hm
  obtain ⟨y, hy⟩ := lookup_member hx
  obtain ⟨z, hz⟩ := h y (lookup_some_mem hy)
  exact ⟨z, by rw [Json.req, Json.get_nodup hn, hy]; exact hz⟩

theorem array_reads {l : List Json} (h : ∀ x ∈ l, CanRead f x) : CanRead (Json.array f) (.arr l) := by
  simp only [CanRead, Json.array]
  induction l with
  | nil => exact ⟨[], rfl⟩
  | cons x l ih =>
    obtain ⟨y, hy⟩ := h x (by simp)
    obtain ⟨ys, hys⟩ := ih fun z hz => h z (by simp [hz])
    exact ⟨y :: ys, by simp [List.mapM_cons, hy, hys, bind, Except.bind, pure, Except.pure]⟩

theorem orEmpty_reads (h : ∀ x, (k, x) ∈ o → CanRead (Json.array f) x)
    (hn : (o.map Prod.fst).Nodup := by distinct_members) :
    ∃ y, Json.orEmpty o k f = .ok y := by
  unfold Json.orEmpty
  rw [Json.get_nodup hn]
  split
  · exact ⟨_, rfl⟩
  · rename_i j hl
    exact h j (lookup_some_mem (Except.ok.inj hl))
  · rename_i hl
    exact nomatch hl

/-- Reading an array whose items are known to fit a schema. -/
theorem items_reads {C : Context} {s : Schema} {x : Json} {n : Nat}
    (ht : Valid C (.kw (.type .array)) x) (hi : Valid C (.items s) x) (hs : Sane n x)
    (h : ∀ l, x = .arr l → ∀ y ∈ l, Valid C s y → Sane n y → CanRead f y) : CanRead (Json.array f) x := by
  obtain ⟨l, rfl⟩ := type_array ht
  exact array_reads fun y hy => h l rfl y hy (valid_items.mp hi y hy) (hs.item hy)

end

theorem string_reads {x : Json} (h : ∃ s, x = .str s) : CanRead Json.string x := by
  obtain ⟨s, rfl⟩ := h
  exact ⟨s, rfl⟩

theorem enum_reads {α : Type} {new : String → α} {x : Json} (h : ∃ s, x = .str s) :
    CanRead (Json.enum new) x := by
  obtain ⟨s, rfl⟩ := h
  exact ⟨new s, rfl⟩

theorem boolean_reads {C : Context} {x : Json} (h : Valid C (.kw (.type .boolean)) x) :
    CanRead Json.boolean x := by
  have := valid_type h
  cases x <;> simp_all [HasType]
  exact ⟨_, rfl⟩

theorem u32_reads {x : Json} (h : Small x) : CanRead Json.u32 x := by
  obtain ⟨n, hn, rfl⟩ := h
  exact ⟨n, by rw [Json.u32, if_pos hn]⟩

theorem f32_reads [F32Format] {x : Json} (h : IsNumber x) (h' : x ≠ .other) : CanRead Json.f32 x := by
  cases x with
  | nat n => exact ⟨_, rfl⟩
  | float y => exact ⟨_, rfl⟩
  | other => exact absurd rfl h'
  | _ => cases h

theorem one_member {o : List (String × Json)} {k : String} {x : Json} (hn : (o.map Prod.fst).Nodup)
    (hx : (k, x) ∈ o) (h : ∀ k' y, (k', y) ∈ o → k' = k) : o = [(k, x)] := by
  cases o with
  | nil => cases hx
  | cons p o =>
    obtain ⟨k', y⟩ := p
    have e : k' = k := h k' y (by simp)
    subst e
    cases o with
    | nil => simp_all
    | cons q o =>
      obtain ⟨k2, z⟩ := q
      have e2 : k2 = k' := h k2 z (by simp)
      subst e2
      simp at hn

theorem nodup_unique {o : List (String × Json)} {k : String} {x y : Json} (hn : (o.map Prod.fst).Nodup)
    (hx : (k, x) ∈ o) (hy : (k, y) ∈ o) : x = y := by
  induction o with
  | nil => cases hx
  | cons p o ih =>
    simp only [List.map_cons, List.nodup_cons, List.mem_map, not_exists, not_and] at hn
    rcases List.mem_cons.mp hx with e | hx'
    · rcases List.mem_cons.mp hy with e' | hy'
      · rw [← e] at e'
        cases e'
        rfl
      · exact absurd (by rw [← e]) (hn.1 (k, y) hy')
    · rcases List.mem_cons.mp hy with e | hy'
      · exact absurd (by rw [← e]) (hn.1 (k, x) hx')
      · exact ih hn.2 hx' hy'

/-- Reading an enumeration written as an object with one member. -/
theorem tagged_reads {α : Type} {vs : List (String × (Json → Except String α))}
    {f : Json → Except String α} {o : List (String × Json)} {k : String} {x : Json}
    (e : o = [(k, x)]) (hf : vs.lookup k = some f) (h : CanRead f x) : CanRead (Json.tagged vs) (.obj o) := by
  subst e
  obtain ⟨y, hy⟩ := h
  exact ⟨y, by simp only [Json.tagged, hf, hy]⟩

theorem lookup_variant {α : Type} {vs : List (String × (Json → Except String α))} {k : String}
    {f : Json → Except String α} (h : vs.lookup k = some f) : (k, f) ∈ vs := by
  induction vs with
  | nil => cases h
  | cons p vs ih =>
    obtain ⟨k', g⟩ := p
    rw [List.lookup_cons] at h
    split at h
    · rename_i e
      cases h
      rw [eq_of_beq e]
      exact .head _
    · exact .tail _ (ih h)

theorem flatVariant_reads {α : Type} {o : List (String × Json)}
    {vs : List (String × (Json → Except String α))} (h1 : ∃ p ∈ vs, ∃ x, (p.1, x) ∈ o)
    (h2 : ∀ p ∈ vs, ∀ x, (p.1, x) ∈ o → CanRead p.2 x) : ∃ y, Json.flatVariant o vs = .ok y := by
  induction o with
  | nil => obtain ⟨_, _, _, h⟩ := h1; cases h
  | cons m o ih =>
    obtain ⟨k, j⟩ := m
    simp only [Json.flatVariant]
    split
    · rename_i f hf
      exact h2 (k, f) (lookup_variant hf) j (.head _)
    · rename_i hf
      refine ih ?_ fun p hp x hx => h2 p hp x (.tail _ hx)
      obtain ⟨p, hp, x, hx⟩ := h1
      cases hx with
      | head =>
        have := (List.lookup_eq_none_iff.mp hf) p hp
        simp at this
      | tail _ hx => exact ⟨p, hp, x, hx⟩

theorem flatUntagged_reads {α : Type} {o : List (String × Json)}
    {vs : List (String × (Json → Except String α))} (h1 : ∃ p ∈ vs, ∃ x, (p.1, x) ∈ o)
    (h2 : ∀ p ∈ vs, ∀ x, (p.1, x) ∈ o → CanRead p.2 x)
    (hn : (o.map Prod.fst).Nodup := by distinct_members) :
    ∃ y, Json.flatUntagged o vs = .ok y := by
  induction vs with
  | nil => obtain ⟨_, h, _⟩ := h1; cases h
  | cons p vs ih =>
    obtain ⟨k, f⟩ := p
    simp only [Json.flatUntagged, Json.get_nodup hn]
    cases hj : o.lookup k with
    | some j =>
      obtain ⟨y, hy⟩ := h2 (k, f) (by simp) j (lookup_some_mem hj)
      have hy' : f j = .ok y := hy
      exact ⟨y, by simp only [hy']⟩
    | none =>
      refine ih ?_ fun p hp => h2 p (by simp [hp])
      obtain ⟨p, hp, x, hx⟩ := h1
      rcases List.mem_cons.mp hp with rfl | hp
      · obtain ⟨y, hy⟩ := lookup_member hx
        rw [hy] at hj
        cases hj
      · exact ⟨p, hp, x, hx⟩

theorem oneOf_member {C : Context} {ks : List String} {o : List (String × Json)}
    (h : Valid C (.oneOf (ks.map fun k => .kw (.required [k]))) (.obj o)) :
    ∃ k ∈ ks, (∃ x, (k, x) ∈ o) ∧ ∀ k' ∈ ks, k' ≠ k → ∀ x, (k', x) ∉ o := by
  generalize hl : (ks.map fun k => Schema.kw (.required [k])) = l at h
  cases h with
  | @oneOf before after s _ h1 h2 h3 =>
    have hs : s ∈ ks.map fun k => Schema.kw (.required [k]) := by rw [hl]; simp
    obtain ⟨k, hk, rfl⟩ := List.mem_map.mp hs
    refine ⟨k, hk, valid_required h1 (by simp), fun k' hk' hne x hx => ?_⟩
    have hs' : Schema.kw (.required [k']) ∈ before ++ Schema.kw (.required [k]) :: after := by
      rw [← hl]
      exact List.mem_map.mpr ⟨k', hk', rfl⟩
    have hi : Invalid C (.kw (.required [k'])) (.obj o) := by
      rcases List.mem_append.mp hs' with h | h
      · exact h2 _ h
      · rcases List.mem_cons.mp h with h | h
        · simp only [Schema.kw.injEq, Keyword.required.injEq, List.cons.injEq, and_true] at h
          exact absurd h hne
        · exact h3 _ h
    refine invalid_kw.mp hi fun k'' hk'' => ?_
    simp only [List.mem_cons, List.not_mem_nil, or_false] at hk''
    subst hk''
    exact ⟨x, hx⟩

/-- An object with one of several members, and no other member, has one member. -/
theorem oneOf_single {C : Context} {ks : List String} {o : List (String × Json)} {n : Nat}
    (h : Valid C (.oneOf (ks.map fun k => .kw (.required [k]))) (.obj o))
    (hc : Valid C (.kw (.closed ks)) (.obj o)) (hs : Sane n (.obj o)) :
    ∃ k ∈ ks, ∃ x, o = [(k, x)] := by
  obtain ⟨k, hk, ⟨x, hx⟩, hne⟩ := oneOf_member h
  refine ⟨k, hk, x, one_member hs.nodup hx fun k' y hy => ?_⟩
  by_contra e
  exact hne k' (valid_closed hc hy) e y hy

theorem lookup_algorithm {a : String} (h : a ∈ signatureAlgorithms) : CanRead Algorithm.ofJson (.str a) := by
  simp only [signatureAlgorithms, List.mem_cons, List.not_mem_nil, or_false] at h
  rcases h with rfl | rfl | rfl | rfl | rfl | rfl | rfl | rfl | rfl | rfl | rfl | rfl | rfl | rfl <;>
    exact ⟨_, rfl⟩

theorem signature_reads {F : Formats} {v : SpecVersion} {n : Nat} {x : Json}
    (h : Valid (schemaContext F v) SchemaJsf.jsfSignature x) (hs : Sane n x)
    (hk : ∃ p a, x = .obj p ∧ ("algorithm", .str a) ∈ p ∧ a ∈ signatureAlgorithms) :
    CanRead Signature.ofJson x := by
  obtain ⟨o, a, rfl, ha, hl⟩ := hk
  obtain ⟨s, hm, h⟩ := (valid_part h (.tail _ (.head _))).oneOf_mem
  have hv : Valid (schemaContext F v) SchemaJsf.jsfSigner (.obj o) := by
    simp only [List.mem_cons, List.not_mem_nil, or_false] at hm
    rcases hm with rfl | rfl | rfl
    · have := valid_closed (valid_part h (.head _)) ha
      simp at this
    · have := valid_closed (valid_part h (.head _)) ha
      simp at this
    · exact valid_unref h (by cases v <;> rfl)
  have hsig : CanRead Signer.ofJson (.obj o) := by
    refine fields_reads ?_
    refine bind_reads (req_reads ⟨_, ha⟩ fun x hx => ?_) fun _ => ?_
    · have : x = .str a := by
        have := hs.nodup
        by_contra e
        exact absurd (nodup_unique this hx ha) e
      subst this
      exact lookup_algorithm hl
    refine bind_reads (req_reads (valid_required (valid_part hv (.tail _ (.head _))) (by simp))
      fun x hx => ?_) fun _ => ⟨_, rfl⟩
    exact string_reads (type_string (valid_property (valid_part hv (.tail _ (.tail _ (.tail _ (.head _)))))
      (by simp) hx))
  obtain ⟨y, hy⟩ := hsig
  exact ⟨.single y, by simp only [Signature.ofJson, Json.array, hy, Except.map]⟩

end Cdx
