import Verif.Lemmas.Json
import Verif.Lemmas.Xml

set_option linter.unusedSectionVars false
set_option linter.unusedSimpArgs false

/-!
# What follows from a JSON value being read back
-/

namespace Cdx

theorem bindInv {ε α β : Type} {m : Except ε α} {f : α → Except ε β} {y : β}
    (h : (m >>= f) = .ok y) : ∃ a, m = .ok a ∧ f a = .ok y := by
  cases m with
  | error e => exact nomatch h
  | ok a => exact ⟨a, rfl, h⟩

theorem bindWith {ε α β : Type} {m : Except ε α} {f : α → Except ε β} {a : α} {y : β}
    (e : m = .ok a) (h : (m >>= f) = .ok y) : f a = .ok y := by
  subst e
  exact h

namespace Json

variable {α β : Type}

theorem map_inv {m : Except String α} {c : α → β} {y : β} (h : m.map c = .ok y) :
    ∃ z, m = .ok z ∧ c z = y := by
  cases m with
  | error e => exact nomatch h
  | ok z => exact ⟨z, rfl, Except.ok.inj h⟩

theorem req_inv {l : List (String × Option Json)} {k : String} {f : Json → Except String α} {j : Json}
    {x y : α} (h : req (mkFields l) k f = .ok y)
    (hn : (l.map (·.1)).Nodup) (hl : (k, some j) ∈ l) (e : y = x) : f j = .ok x := by
  subst e
  rw [req, get_mkFields hn hl] at h
  exact h

theorem opt_some {l : List (String × Json)} {k : String} {f : Json → Except String β} {j : Json}
    {y : β} (hl : get l k = .ok (some j)) (h : opt l k f = .ok (some y)) : f j = .ok y := by
  rw [opt, hl] at h
  cases j with
  | null => exact nomatch h
  | _ =>
    obtain ⟨z, hz, e⟩ := map_inv h
    cases e
    exact hz

theorem opt_inv {l : List (String × Option Json)} {k : String} {f : Json → Except String β}
    {g : α → Json} {x : Option α} {a : α → β} {y : Option β} (h : opt (mkFields l) k f = .ok y)
    (hn : (l.map (·.1)).Nodup)
    (hl : (k, x.map g) ∈ l) (e : y = x.map a) :
    ∀ z, x = some z → f (g z) = .ok (a z) := by
  rintro z rfl
  subst e
  exact opt_some (get_mkFields hn hl) h

theorem opt_inv_id {l : List (String × Option Json)} {k : String} {f : Json → Except String α}
    {g : α → Json} {x y : Option α} (h : opt (mkFields l) k f = .ok y)
    (hn : (l.map (·.1)).Nodup)
    (hl : (k, x.map g) ∈ l) (e : y = x) :
    ∀ z, x = some z → f (g z) = .ok z := by
  rintro z rfl
  subst e
  exact opt_some (get_mkFields hn hl) h

theorem null_inv {l : List (String × Option Json)} {k : String} {f : Json → Except String β}
    {g : α → Json} {x : Option α} {a : α → β} {y : Option β} (h : opt (mkFields l) k f = .ok y)
    (hn : (l.map (·.1)).Nodup)
    (hl : (k, some (orNull g x)) ∈ l) (e : y = x.map a) :
    ∀ z, x = some z → f (g z) = .ok (a z) := by
  rintro z rfl
  subst e
  exact opt_some (get_mkFields hn hl) h

theorem null_inv_id {l : List (String × Option Json)} {k : String} {f : Json → Except String α}
    {g : α → Json} {x y : Option α} (h : opt (mkFields l) k f = .ok y)
    (hn : (l.map (·.1)).Nodup)
    (hl : (k, some (orNull g x)) ∈ l) (e : y = x) :
    ∀ z, x = some z → f (g z) = .ok z := by
  rintro z rfl
  subst e
  exact opt_some (get_mkFields hn hl) h

theorem need_inv {l : List (String × Option Json)} {k : String} {f : Json → Except String α}
    {g : α → Json} {x y : Option α} (h : (req (mkFields l) k f).map some = .ok y)
    (hn : (l.map (·.1)).Nodup) (hl : (k, x.map g) ∈ l) : x ≠ none := by
  rintro rfl
  obtain ⟨z, hz, -⟩ := map_inv h
  rw [req, get_mkFields hn hl] at hz
  exact nomatch hz

theorem getD_inv {l : List (String × Option Json)} {k : String} {f : Json → Except String α} {j : Json}
    {x y d : α} (h : (opt (mkFields l) k f).map (·.getD d) = .ok y)
    (hn : (l.map (·.1)).Nodup) (hl : (k, some j) ∈ l) (hj : j ≠ .null) (e : y = x) : f j = .ok x := by
  subst e
  obtain ⟨z, hz, e⟩ := map_inv h
  rw [opt, get_mkFields hn hl] at hz
  cases j with
  | null => exact absurd rfl hj
  | _ =>
    obtain ⟨w, hw, rfl⟩ := map_inv hz
    cases e
    exact hw

theorem mapM_inv {γ : Type} {f : β → Except String γ} {g : α → β} {a : α → γ} : ∀ {l : List α},
    (l.map g).mapM f = .ok (l.map a) → ∀ x ∈ l, f (g x) = .ok (a x)
  | [], _, _, hx => nomatch hx
  | z :: l, h, x, hx => by
    rw [List.map_cons, List.mapM_cons] at h
    obtain ⟨b, hb, h⟩ := bindInv h
    obtain ⟨c, hc, h⟩ := bindInv h
    have h := Except.ok.inj h
    rw [List.map_cons] at h
    obtain ⟨rfl, rfl⟩ := List.cons.inj h
    cases hx with
    | head => exact hb
    | tail _ hx => exact mapM_inv hc x hx

theorem array_inv {f : Json → Except String β} {g : α → Json} {l : List α} {a : α → β}
    (h : array f (ofList g l) = .ok (l.map a)) : ∀ x ∈ l, f (g x) = .ok (a x) := mapM_inv h

theorem array_inv_id {f : Json → Except String α} {g : α → Json} {l : List α}
    (h : array f (ofList g l) = .ok l) : ∀ x ∈ l, f (g x) = .ok x :=
  array_inv (a := id) (by rw [List.map_id]; exact h)

theorem orEmpty_inv {l : List (String × Option Json)} {k : String} {f : Json → Except String α}
    {g : α → Json} {x y : List α} (h : orEmpty (mkFields l) k f = .ok y)
    (hn : (l.map (·.1)).Nodup) (hm : (k, unlessEmpty g x) ∈ l) (e : y = x) : ∀ z ∈ x, f (g z) = .ok z := by
  subst e
  rw [orEmpty, get_mkFields hn hm] at h
  cases y with
  | nil => exact fun z hz => nomatch hz
  | cons a x => exact array_inv_id h

theorem enum_inv {display : α → String} {new : String → α} {x : α}
    (h : enum new (ofEnum display x) = .ok x) : Stable display new x := Except.ok.inj h

theorem u32_inv {n : Nat} (h : u32 (.nat n) = .ok n) : n < 2 ^ 32 := by
  by_cases hn : n < 2 ^ 32
  · exact hn
  · simp only [u32, if_neg hn] at h
    exact nomatch h

theorem f32_inv [F32Format] {x : F32} (h : f32 (ofF32 x) = .ok x) : x.isFinite = true := by
  cases hx : x.isFinite with
  | true => rfl
  | false =>
    rw [ofF32, hx] at h
    exact nomatch h

theorem untagged_none {l : List (String × Option Json)} :
    ∀ {vs : List (String × (Json → Except String α))} {x : α},
    (∀ k ∈ vs.map (·.1), k ∉ l.map (·.1)) → flatUntagged (mkFields l) vs ≠ .ok x
  | [], _, _, h => nomatch h
  | (k, f) :: vs, x, hk, h => by
    rw [untagged_miss (hk k (.head _))] at h
    exact untagged_none (fun k hk' => hk k (.tail _ hk')) h

theorem untagged_inv {l : List (String × Option Json)} {k : String} {f : Json → Except String α}
    {vs : List (String × (Json → Except String α))} {j : Json} {x y : α} (h : flatUntagged (mkFields l) ((k, f) :: vs) = .ok y)
    (hn : (l.map (·.1)).Nodup)
    (hl : (k, some j) ∈ l) (hk : ∀ k ∈ vs.map (·.1), k ∉ l.map (·.1)) (e : y = x) : f j = .ok x := by
  subst e
  rw [flatUntagged, get_mkFields hn hl] at h
  simp only at h
  split at h
  · rename_i z hz
    rw [hz, Except.ok.inj h]
  · exact absurd h (untagged_none hk)

theorem flat_inv {l : List (String × Option Json)} {k : String} {f : Json → Except String α}
    {vs : List (String × (Json → Except String α))} {j : Json} {x : α}
    (h : flatVariant (mkFields l) vs = .ok x) (hl : (k, some j) ∈ l) (hf : vs.lookup k = some f)
    (ho : ∀ k' ∈ l.map (·.1), k' = k ∨ vs.lookup k' = none) (hn : (l.map (·.1)).Nodup) :
    f j = .ok x := by
  rw [← flat_hit hl hf ho hn]
  exact h

end Json

end Cdx
