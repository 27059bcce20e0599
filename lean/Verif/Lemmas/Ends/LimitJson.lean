import Verif.Lemmas.Readable
import Verif.Lemmas.Value

set_option linter.unusedSectionVars false

/-!
# The limit on nested components and services matters only for deeper JSON documents
-/

namespace Cdx

open Spec

variable {α β : Type} {m : Nat}

/-- Two readers give the same for values of depth at most `m`. -/
def AlikeJ (m : Nat) (f g : Json → Except String α) : Prop := ∀ j, Within m j → f j = g j

theorem within_members {o : List (String × Json)} (h : Within m (.obj o)) : ∀ p ∈ o, Within m p.2 := by
  cases h with
  | obj h => exact fun p hp => (h p hp).succ

theorem within_items {l : List Json} (h : Within m (.arr l)) : ∀ j ∈ l, Within m j := by
  cases h with
  | arr h => exact fun p hp => (h p hp).succ

theorem within_toValue {j : Json} (h : Within m j) : Within m j.toValue := by
  induction h with
  | null => exact .null
  | bool => exact .bool
  | nat => exact .nat
  | float => exact .float
  | other => exact .other
  | str => exact .str
  | @arr n l _ ih =>
    simp only [Json.toValue]
    refine .arr fun y hy => ?_
    have : ∀ l : List Json, y ∈ Json.toValues l → ∃ x ∈ l, y = x.toValue := by
      intro l
      induction l with
      | nil => intro h; simp [Json.toValues] at h
      | cons x l ih =>
        intro h
        simp only [Json.toValues, List.mem_cons] at h
        rcases h with h | h
        · exact ⟨x, .head _, h⟩
        · obtain ⟨z, hz, e⟩ := ih h
          exact ⟨z, .tail _ hz, e⟩
    obtain ⟨x, hx, rfl⟩ := this l hy
    exact ih x hx
  | @obj n o _ ih =>
    simp only [Json.toValue]
    refine .obj fun p hp => ?_
    obtain ⟨k, y⟩ := p
    obtain ⟨x, hx, rfl⟩ := toValue_mem hp
    exact ih (k, x) hx

theorem get_within {o : List (String × Json)} {k : String} {j : Json} (ho : ∀ p ∈ o, Within m p.2)
    (h : Json.get o k = .ok (some j)) : Within m j := by
  simp only [Json.get] at h
  split at h
  · cases h
  · rename_i p hp
    cases h
    have : p ∈ o.filter fun p => p.1 == k := by rw [hp]; exact .head _
    exact ho p (List.mem_filter.mp this).1
  · cases h

theorem opt_alike {o : List (String × Json)} (ho : ∀ p ∈ o, Within m p.2)
    {f g : Json → Except String α} (h : AlikeJ m f g) (k : String) : Json.opt o k f = Json.opt o k g := by
  simp only [Json.opt]
  cases hg : Json.get o k with
  | error e => rfl
  | ok r =>
    cases r with
    | none => rfl
    | some j =>
      have := h j (get_within ho hg)
      cases j <;> simp only [this]

theorem req_alike {o : List (String × Json)} (ho : ∀ p ∈ o, Within m p.2)
    {f g : Json → Except String α} (h : AlikeJ m f g) (k : String) : Json.req o k f = Json.req o k g := by
  simp only [Json.req]
  cases hg : Json.get o k with
  | error e => rfl
  | ok r =>
    cases r with
    | none => rfl
    | some j => exact h j (get_within ho hg)

theorem mapM_alike {f g : α → Except String β} : ∀ {l : List α}, (∀ x ∈ l, f x = g x) → l.mapM f = l.mapM g
  | [], _ => rfl
  | x :: l, h => by
    rw [List.mapM_cons, List.mapM_cons, h x (.head _), mapM_alike fun y hy => h y (.tail _ hy)]

theorem array_alike {f g : Json → Except String α} (h : AlikeJ m f g) :
    AlikeJ m (Json.array f) (Json.array g) := by
  intro j hj
  cases j with
  | arr l => exact mapM_alike fun x hx => h x (within_items hj x hx)
  | _ => rfl

/-- What follows reading an object matters for objects alone. -/
theorem fieldsThen {j : Json} {f g : List (String × Json) → Except String α}
    (h : ∀ o, j = .obj o → f o = g o) : (Json.fields j >>= f) = (Json.fields j >>= g) := by
  cases j with
  | obj o => exact h o rfl
  | _ => rfl

variable [F32Format]

theorem Pedigree.jsonAlikeWith {v : SpecVersion} {sub sub' : Json → Except String Component}
    (h : AlikeJ m sub sub') : AlikeJ m (Pedigree.ofJsonWith sub v) (Pedigree.ofJsonWith sub' v) := by
  intro j hj
  unfold Pedigree.ofJsonWith
  refine fieldsThen fun o ho => ?_
  subst ho
  have e := opt_alike (within_members hj) (array_alike h)
  simp only [e]

theorem Component.jsonAlikeWith {v : SpecVersion} {sub sub' : Json → Except String Component}
    (h : AlikeJ m sub sub') : AlikeJ (m + 1) (Component.ofJsonWith sub v) (Component.ofJsonWith sub' v) := by
  intro j hj
  unfold Component.ofJsonWith
  refine fieldsThen fun o ho => ?_
  subst ho
  cases hj with
  | obj ho =>
    have e := opt_alike ho (array_alike h)
    have e' := opt_alike ho (Pedigree.jsonAlikeWith (v := v) h)
    simp only [e, e']

theorem Service.jsonAlikeWith {v : SpecVersion} {sub sub' : Json → Except String Service}
    (h : AlikeJ m sub sub') : AlikeJ (m + 1) (Service.ofJsonWith sub v) (Service.ofJsonWith sub' v) := by
  intro j hj
  unfold Service.ofJsonWith
  refine fieldsThen fun o ho => ?_
  subst ho
  cases hj with
  | obj ho =>
    have e := opt_alike ho (array_alike h)
    simp only [e]

theorem Component.jsonAlikeZero {v : SpecVersion} {sub sub' : Json → Except String Component} :
    AlikeJ 0 (Component.ofJsonWith sub v) (Component.ofJsonWith sub' v) := by
  intro j hj
  unfold Component.ofJsonWith
  refine fieldsThen fun o ho => ?_
  subst ho
  cases hj

theorem Service.jsonAlikeZero {v : SpecVersion} {sub sub' : Json → Except String Service} :
    AlikeJ 0 (Service.ofJsonWith sub v) (Service.ofJsonWith sub' v) := by
  intro j hj
  unfold Service.ofJsonWith
  refine fieldsThen fun o ho => ?_
  subst ho
  cases hj

theorem Component.jsonAlikeN {v : SpecVersion} : ∀ {m a b : Nat}, m < a → m < b →
    AlikeJ m (Component.ofJsonN v a) (Component.ofJsonN v b)
  | _, 0, _, h, _ => by omega
  | _, _ + 1, 0, _, h => by omega
  | 0, _ + 1, _ + 1, _, _ => Component.jsonAlikeZero
  | _ + 1, _ + 1, _ + 1, h, h' => Component.jsonAlikeWith (Component.jsonAlikeN (by omega) (by omega))

theorem Service.jsonAlikeN {v : SpecVersion} : ∀ {m a b : Nat}, m < a → m < b →
    AlikeJ m (Service.ofJsonN v a) (Service.ofJsonN v b)
  | _, 0, _, h, _ => by omega
  | _, _ + 1, 0, _, h => by omega
  | 0, _ + 1, _ + 1, _, _ => Service.jsonAlikeZero
  | _ + 1, _ + 1, _ + 1, h, h' => Service.jsonAlikeWith (Service.jsonAlikeN (by omega) (by omega))

variable {i i' : ReadLimit} {v : SpecVersion}

theorem Component.jsonAlike (hi : m < i.limit) (hi' : m < i'.limit) :
    AlikeJ m (@Component.ofJson _ i v) (@Component.ofJson _ i' v) := Component.jsonAlikeN hi hi'

theorem Service.jsonAlike (hi : m < i.limit) (hi' : m < i'.limit) :
    AlikeJ m (@Service.ofJson i v) (@Service.ofJson i' v) := Service.jsonAlikeN hi hi'

theorem Tools.objectJsonAlike (hi : m < i.limit) (hi' : m < i'.limit) :
    AlikeJ m (@Tools.objectOfJson _ i v) (@Tools.objectOfJson _ i' v) := by
  intro j hj
  unfold Tools.objectOfJson
  refine fieldsThen fun o ho => ?_
  subst ho
  have e := opt_alike (within_members hj) (array_alike (Component.jsonAlike (v := v) hi hi'))
  have e' := opt_alike (within_members hj) (array_alike (Service.jsonAlike (v := v) hi hi'))
  simp only [e, e']

theorem Tools.jsonAlike (hi : m < i.limit) (hi' : m < i'.limit) :
    AlikeJ m (@Tools.ofJson _ i v) (@Tools.ofJson _ i' v) := by
  intro j hj
  simp only [Tools.ofJson, Tools.objectJsonAlike (v := v) hi hi' j hj]

theorem Metadata.jsonAlike (hi : m < i.limit) (hi' : m < i'.limit) :
    AlikeJ m (@Metadata.ofJson _ i v) (@Metadata.ofJson _ i' v) := by
  intro j hj
  unfold Metadata.ofJson
  refine fieldsThen fun o ho => ?_
  subst ho
  have e := opt_alike (within_members hj) (Component.jsonAlike (v := v) hi hi')
  have e' := opt_alike (within_members hj) (Tools.jsonAlike (v := v) hi hi')
  simp only [e, e']

theorem Vulnerability.jsonAlike (hi : m < i.limit) (hi' : m < i'.limit) :
    AlikeJ m (@Vulnerability.ofJson _ i v) (@Vulnerability.ofJson _ i' v) := by
  intro j hj
  unfold Vulnerability.ofJson
  refine fieldsThen fun o ho => ?_
  subst ho
  have e := opt_alike (within_members hj) (Tools.jsonAlike (v := v) hi hi')
  simp only [e]

theorem Formula.jsonAlike (hi : m < i.limit) (hi' : m < i'.limit) :
    AlikeJ m (@Formula.ofJson _ i v) (@Formula.ofJson _ i' v) := by
  intro j hj
  unfold Formula.ofJson
  refine fieldsThen fun o ho => ?_
  subst ho
  have e := opt_alike (within_members hj) (array_alike (Component.jsonAlike (v := v) hi hi'))
  have e' := opt_alike (within_members hj) (array_alike (Service.jsonAlike (v := v) hi hi'))
  simp only [e, e']

theorem Annotator.jsonAlike (hi : m < i.limit) (hi' : m < i'.limit) :
    AlikeJ m (@Annotator.ofJson _ i v) (@Annotator.ofJson _ i' v) := by
  intro j hj
  cases j with
  | obj o =>
    cases o with
    | nil => rfl
    | cons p o =>
      cases o with
      | cons q o => rfl
      | nil =>
        obtain ⟨k, x⟩ := p
        have hx : Within m x := within_members hj (k, x) (.head _)
        have e := Component.jsonAlike (v := v) hi hi' x hx
        have e' := Service.jsonAlike (v := v) hi hi' x hx
        simp only [Annotator.ofJson, Json.tagged, List.lookup_cons, List.lookup_nil]
        cases k == "organization" <;> cases k == "individual" <;> cases k == "component" <;>
          cases k == "service" <;> simp only [e, e']
  | _ => rfl

theorem Annotation.jsonAlike (hi : m < i.limit) (hi' : m < i'.limit) :
    AlikeJ m (@Annotation.ofJson _ i v) (@Annotation.ofJson _ i' v) := by
  intro j hj
  unfold Annotation.ofJson
  refine fieldsThen fun o ho => ?_
  subst ho
  have e := req_alike (within_members hj) (Annotator.jsonAlike (v := v) hi hi')
  simp only [e]

theorem Bom.jsonAlike (hi : m ≤ i.limit) (hi' : m ≤ i'.limit) :
    AlikeJ m (@Bom.ofJson _ i v) (@Bom.ofJson _ i' v) := by
  intro j hj
  unfold Bom.ofJson
  refine fieldsThen fun o ho => ?_
  subst ho
  cases hj with
  | obj ho =>
    have e1 := opt_alike ho (array_alike (Component.jsonAlike (v := v) (i := i) (i' := i') hi hi'))
    have e2 := opt_alike ho (array_alike (Service.jsonAlike (v := v) (i := i) (i' := i') hi hi'))
    have e3 := opt_alike ho (Metadata.jsonAlike (v := v) (i := i) (i' := i') hi hi')
    have e4 := opt_alike ho (array_alike (Vulnerability.jsonAlike (v := v) (i := i) (i' := i') hi hi'))
    have e5 := opt_alike ho (array_alike (Annotation.jsonAlike (v := v) (i := i) (i' := i') hi hi'))
    have e6 := opt_alike ho (array_alike (Formula.jsonAlike (v := v) (i := i) (i' := i') hi hi'))
    simp only [e1, e2, e3, e4, e5, e6]

end Cdx
