import Verif.Lemmas.Reordered

/-!
# Lemmas on `serde_json::Value`
-/

namespace Cdx

open Spec

section
variable {o p : List (String × Json)} {k : String} {G : List (List String)}

theorem toMembers_map : ∀ o : List (String × Json), Json.toMembers o = o.map fun m => (m.1, m.2.toValue)
  | [] => rfl
  | (k, j) :: o => by rw [Json.toMembers, toMembers_map o]; rfl

theorem toValues_map : ∀ l : List Json, Json.toValues l = l.map Json.toValue
  | [] => rfl
  | j :: l => by rw [Json.toValues, toValues_map l]; rfl

theorem toMembers_keys : (Json.toMembers o).map Prod.fst = o.map Prod.fst := by
  rw [toMembers_map, List.map_map]
  rfl

theorem OMap.mem_ofList {κ α : Type} [Ord κ] [Std.TransOrd κ] [Std.LawfulEqOrd κ] {l : List (κ × α)} {x : κ × α}
    (h : x ∈ OMap.ofList l) : x ∈ l := by
  unfold OMap.ofList at h
  have : ∀ (l : List (κ × α)) (m : OMap κ α), x ∈ l.foldl (fun m p => m.insert p.1 p.2) m → x ∈ l ∨ x ∈ m := by
    intro l
    induction l with
    | nil => intro m h; exact .inr h
    | cons a l ih =>
      intro m h
      rcases ih _ h with h | h
      · exact .inl (.tail _ h)
      · rcases OMap.mem_insert_key h with h | h
        · exact .inl (h ▸ .head _)
        · exact .inr h
  rcases this l [] h with h | h
  · exact h
  · cases h

theorem toValue_mem {y : Json} (h : (k, y) ∈ OMap.ofList (Json.toMembers o)) :
    ∃ x, (k, x) ∈ o ∧ y = x.toValue := by
  have := OMap.mem_ofList h
  rw [toMembers_map, List.mem_map] at this
  obtain ⟨⟨k', x⟩, hx, e⟩ := this
  cases e
  exact ⟨x, hx, rfl⟩

theorem mem_toValue {x : Json} (hn : (o.map Prod.fst).Nodup) (h : (k, x) ∈ o) :
    (k, x.toValue) ∈ OMap.ofList (Json.toMembers o) := by
  have hn' : ((Json.toMembers o).map (·.1)).Nodup := by
    show ((Json.toMembers o).map Prod.fst).Nodup
    rw [toMembers_keys]
    exact hn
  refine OMap.lookup_mem ((OMap.lookup_ofList_some hn').mpr ?_)
  rw [toMembers_map]
  exact List.mem_map_of_mem (f := fun m : String × Json => (m.1, m.2.toValue)) h

theorem toValue_nodup : ((OMap.ofList (Json.toMembers o)).map Prod.fst).Nodup :=
  OMap.keys_nodup (OMap.sorted_ofList _)

/-- Induction on JSON values. -/
theorem Json.byParts {P : Json → Prop} (null : P .null) (bool : ∀ b, P (.bool b)) (nat : ∀ n, P (.nat n))
    (float : ∀ x, P (.float x)) (other : P .other) (str : ∀ s, P (.str s))
    (arr : ∀ l, (∀ j ∈ l, P j) → P (.arr l)) (obj : ∀ o, (∀ m ∈ o, P m.2) → P (.obj o)) : ∀ j, P j
  | .null => null
  | .bool b => bool b
  | .nat n => nat n
  | .float x => float x
  | .other => other
  | .str s => str s
  | .arr l => arr l fun j _ => Json.byParts null bool nat float other str arr obj j
  | .obj o => obj o fun m _ => Json.byParts null bool nat float other str arr obj m.2
termination_by j => sizeOf j
decreasing_by
  · rename_i hj
    have := List.sizeOf_lt_of_mem hj
    simp
    omega
  · rename_i hm
    have := List.sizeOf_lt_of_mem hm
    obtain ⟨k, x⟩ := m
    simp at this ⊢
    omega

/-- No object in a value has two members of the same name. -/
theorem toValue_unique : ∀ j : Json, j.toValue.Unique := by
  refine Json.byParts .null (fun _ => .bool) (fun _ => .nat) (fun _ => .float) .other (fun _ => .str) ?_ ?_
  · intro l ih
    rw [Json.toValue, toValues_map]
    refine .arr fun j hj => ?_
    obtain ⟨i, hi, rfl⟩ := List.mem_map.mp hj
    exact ih i hi
  · intro o ih
    rw [Json.toValue]
    refine .obj toValue_nodup fun m hm => ?_
    obtain ⟨x, hx, e⟩ := toValue_mem (k := m.1) (y := m.2) hm
    rw [e]
    exact ih _ hx

/-- Documents that differ in the order of members are the same as values. -/
theorem Spec.Reordered.toValue {a b : Json} (h : Reordered G a b) : a.toValue = b.toValue := by
  induction h with
  | nil => rfl
  | cons _ _ ih1 ih2 =>
    simp only [Json.toValue, Json.toValues] at ih2 ⊢
    rw [ih1, Json.arr.inj ih2]
  | @obj o p h1 h2 h3 h4 h5 ih =>
    simp only [Json.toValue]
    congr 1
    refine OMap.ext (OMap.sorted_ofList _) (OMap.sorted_ofList _) fun k => ?_
    have hn : ∀ {o : List (String × Json)}, (o.map Prod.fst).Nodup → ((Json.toMembers o).map (·.1)).Nodup := by
      intro o h
      show ((Json.toMembers o).map Prod.fst).Nodup
      rw [toMembers_keys]
      exact h
    apply Option.ext
    intro v
    rw [OMap.lookup_ofList_some (hn h1), OMap.lookup_ofList_some (hn h2), toMembers_map, toMembers_map,
      List.mem_map, List.mem_map]
    constructor
    · rintro ⟨⟨k', x⟩, hx, e⟩
      cases e
      obtain ⟨y, hy⟩ := (h3 k').mp ⟨x, hx⟩
      exact ⟨(k', y), hy, by rw [ih k' x y hx hy]⟩
    · rintro ⟨⟨k', y⟩, hy, e⟩
      cases e
      obtain ⟨x, hx⟩ := (h3 k').mpr ⟨y, hy⟩
      exact ⟨(k', x), hx, by rw [ih k' x y hx hy]⟩
  | _ => rfl

instance (ks : List String) : Decidable (Ranks G ks) := by unfold Ranks; infer_instance

theorem Spec.Ranks.sublist {l m : List String} (hm : Ranks G m) (h : l.Sublist m) : Ranks G l :=
  fun names hn => (hm names hn).sublist (h.filter _)

theorem ranked_none : ∀ j : Json, Ranked [] j := by
  refine Json.byParts .null (fun _ => .bool) (fun _ => .nat) (fun _ => .float) .other (fun _ => .str)
    (fun _ ih => .arr ih) (fun _ ih => .obj nofun ih)

theorem firstOf_ranks {names : List String} (h1 : (o.map Prod.fst).Nodup) (h2 : (p.map Prod.fst).Nodup)
    (h : ∀ k, (∃ x, (k, x) ∈ o) ↔ ∃ y, (k, y) ∈ p)
    (ho : ((o.map Prod.fst).filter fun k => decide (k ∈ names)).Pairwise fun a b => compare a b = .lt)
    (hp : ((p.map Prod.fst).filter fun k => decide (k ∈ names)).Pairwise fun a b => compare a b = .lt) :
    firstOf names o = firstOf names p := by
  unfold firstOf
  rw [← List.head?_filter, ← List.head?_filter]
  congr 1
  have hk : (o.map Prod.fst).Perm (p.map Prod.fst) := by
    refine (List.perm_ext_iff_of_nodup h1 h2).mpr fun k => ?_
    have : ∀ l : List (String × Json), k ∈ l.map Prod.fst ↔ ∃ x, (k, x) ∈ l := by
      intro l
      simp
    rw [this, this, h]
  refine List.Perm.eq_of_pairwise (fun a b _ _ hab hba => ?_) ho hp (hk.filter _)
  have := Std.OrientedCmp.eq_swap (cmp := compare) (a := a) (b := b)
  rw [hab, hba] at this
  cases this

/-- What is read as a value is the document with the members of its objects in another order. -/
theorem reordered_toValue : ∀ {j : Json}, j.Unique → Ranked G j → Reordered G j j.toValue := by
  refine fun {j} => Json.byParts (P := fun j => j.Unique → Ranked G j → Reordered G j j.toValue)
    (fun _ _ => .null) (fun _ _ _ => .bool _) (fun _ _ _ => .nat _) (fun _ _ _ => .float _) (fun _ _ => .other)
    (fun _ _ _ => .str _) ?_ ?_ j
  · intro l ih hu hr
    cases hu with | arr hu =>
    cases hr with | arr hr =>
    clear j
    induction l with
    | nil => exact .nil
    | cons x l ih2 =>
      refine .cons (ih x (.head _) (hu x (.head _)) (hr x (.head _))) ?_
      exact ih2 (fun j hj => ih j (.tail _ hj)) (fun j hj => hu j (.tail _ hj)) (fun j hj => hr j (.tail _ hj))
  · intro o ih hu hr
    cases hu with | obj hn hu =>
    cases hr with | obj hk hr =>
    have names : ∀ k, (∃ x, (k, x) ∈ o) ↔ ∃ y, (k, y) ∈ OMap.ofList (Json.toMembers o) := fun k =>
      ⟨fun ⟨x, hx⟩ => ⟨_, mem_toValue hn hx⟩, fun ⟨y, hy⟩ => let ⟨x, hx, _⟩ := toValue_mem hy; ⟨x, hx⟩⟩
    refine .obj hn toValue_nodup names (fun k x y hx hy => ?_) fun g hg => ?_
    · obtain ⟨z, hz, rfl⟩ := toValue_mem hy
      cases mem_same hn hx hz
      exact ih _ hx (hu _ hx) (hr _ hx)
    · refine firstOf_ranks hn toValue_nodup names (hk g hg) ?_
      refine List.Pairwise.filter _ ?_
      exact List.pairwise_map.mpr (OMap.sorted_ofList _)

end

end Cdx
