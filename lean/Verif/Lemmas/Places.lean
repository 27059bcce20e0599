import Verif.Spec.Places
import Verif.Lemmas.Builder
import Verif.Lemmas.BomPasses

/-!
# The places of the messages of a report: builder calls

`Notes s n P`: the builder call `s` reports, under the name `n`, messages at exactly the places
in `P`.
-/

namespace Cdx

open Spec

set_option linter.unusedSimpArgs false
set_option linter.unusedVariables false
set_option linter.unusedSectionVars false

/-- The places of the messages of an outcome. -/
def TellsOf (r : Res VResult) (p : Place) : Prop := ∃ a, r = .ok a ∧ Noted a p

/-- The places of the messages of the parts in a list. -/
def Under (E : VEnv) (v : SpecVersion) (l : List (Place × Elem)) (p : Place) : Prop :=
  ∃ y ∈ l, ∃ s, p = y.1 ++ s ∧ TellsOf (y.2.outcome E v) s

theorem noted_nil (p : Place) : ¬ Noted [] p := by
  rintro ⟨h, _⟩
  cases h

theorem noted_ofCheck (c : Check) (p : Place) : Noted (.ofCheck c) p ↔ p = [] ∧ c ≠ .ok () := by
  match c with
  | .ok () => simp [VResult.ofCheck, noted_nil]
  | .error e =>
    constructor
    · rintro ⟨h, h'⟩
      rename_i n k p
      simp only [VResult.ofCheck, VResult.error?, List.lookup] at h
      split at h
      · rename_i hn
        obtain rfl := Option.some.inj h
        cases h'
        simp [beq_iff_eq.mp hn, hop]
      · cases h
    · rintro ⟨rfl, -⟩
      exact .entry (n := "") (p := []) (k := .custom [e]) rfl (.custom (List.mem_singleton.mpr rfl))

theorem tells_ofCheck (c : Check) (p : Place) :
    TellsOf (.ok (.ofCheck c)) p ↔ p = [] ∧ c ≠ .ok () := by
  unfold TellsOf
  constructor
  · rintro ⟨a, h, h'⟩
    obtain rfl := Except.ok.inj h
    exact (noted_ofCheck c p).mp h'
  · exact fun h => ⟨_, rfl, (noted_ofCheck c p).mpr h⟩

theorem tells_ok (a : VResult) (p : Place) : TellsOf (.ok a) p ↔ Noted a p :=
  ⟨fun ⟨_, h, h'⟩ => Except.ok.inj h ▸ h', fun h => ⟨_, rfl, h⟩⟩

/-- The places of the messages of an entry under a name. -/
def KindAt (n : String) (k : Option ErrorsKind) (p : Place) : Prop :=
  ∃ e, k = some e ∧ ∃ s, p = hop n ++ s ∧ NotedIn e s

/-- The step reports messages at exactly these places. -/
def Notes (s : VStep) (n : String) (P : Place → Prop) : Prop :=
  ∃ k, Reports s n k ∧ ∀ p, KindAt n k p ↔ P p

theorem Notes.congr {s : VStep} {n : String} {P Q : Place → Prop} (h : Notes s n P)
    (e : ∀ p, P p ↔ Q p) : Notes s n Q :=
  let ⟨k, hk, hP⟩ := h
  ⟨k, hk, fun p => (hP p).trans (e p)⟩

theorem noted_entries {specs : List (String × Option ErrorsKind)}
    (nd : (specs.map (·.1)).Nodup) (p : Place) :
    Noted (entries specs) p ↔ ∃ y ∈ specs, KindAt y.1 y.2 p := by
  constructor
  · rintro ⟨h, h'⟩
    rename_i n k s
    have hn : n ∈ specs.map (·.1) := by
      refine Classical.byContradiction fun hn => ?_
      rw [VResult.error?, lookup_entries_none hn] at h
      cases h
    obtain ⟨y, hy, rfl⟩ := List.mem_map.mp hn
    have := lookup_entries nd (n := y.1) (k := y.2) hy
    rw [VResult.error?, this] at h
    exact ⟨y, hy, k, h, s, rfl, h'⟩
  · rintro ⟨y, hy, e, he, s, rfl, h⟩
    refine .entry ?_ h
    rw [VResult.error?, lookup_entries nd (n := y.1) (k := y.2) hy, he]

theorem notes_chain {steps : List VStep} (specs : List (String × (Place → Prop)))
    (h : All₂ (fun s p => Notes s p.1 p.2) steps specs)
    (nd : (specs.map (·.1)).Nodup) (p : Place) :
    TellsOf (chain steps) p ↔ ∃ y ∈ specs, y.2 p := by
  have : ∃ specs' : List (String × Option ErrorsKind),
      All₂ (fun s p => Reports s p.1 p.2) steps specs' ∧
      specs'.map (·.1) = specs.map (·.1) ∧
      ((∃ y ∈ specs', KindAt y.1 y.2 p) ↔ ∃ y ∈ specs, y.2 p) := by
    clear nd
    induction h with
    | nil => exact ⟨[], .nil, rfl, by simp⟩
    | cons hs _ ih =>
      rename_i s q steps specs _
      obtain ⟨k, hk, hP⟩ := hs
      obtain ⟨specs', h1, h2, h3⟩ := ih
      refine ⟨(q.1, k) :: specs', .cons hk h1, by simp [h2], ?_⟩
      simp only [List.mem_cons, exists_eq_or_imp, h3, hP]
  obtain ⟨specs', h1, h2, h3⟩ := this
  rw [chain_reports h1 (h2 ▸ nd), ← h3, tells_ok]
  exact noted_entries (h2 ▸ nd) p

theorem notesCons {s : VStep} {n : String} {P : Place → Prop} {steps : List VStep}
    {specs : List (String × (Place → Prop))} (h : Notes s n P)
    (hs : All₂ (fun s p => Notes s p.1 p.2) steps specs) :
    All₂ (fun s (p : String × (Place → Prop)) => Notes s p.1 p.2) (s :: steps)
      ((n, P) :: specs) := .cons h hs

/-! ## Single calls -/

theorem kindAt_none (n : String) (p : Place) : ¬ KindAt n none p := by
  rintro ⟨e, h, _⟩; cases h

theorem kindAt_field (n : String) (c : Check) (p : Place) :
    KindAt n (fieldKind c) p ↔ p = hop n ∧ c ≠ .ok () := by
  match c with
  | .ok () => simp [fieldKind, kindAt_none]
  | .error e =>
    constructor
    · rintro ⟨k, hk, s, rfl, hs⟩
      obtain rfl := Option.some.inj hk
      cases hs
      simp
    · rintro ⟨rfl, -⟩
      exact ⟨_, rfl, [], by simp, .field (List.mem_singleton.mpr rfl)⟩

theorem kindAt_enum (n : String) (c : Check) (p : Place) :
    KindAt n (enumKind c) p ↔ p = hop n ∧ c ≠ .ok () := by
  match c with
  | .ok () => simp [enumKind, kindAt_none]
  | .error e =>
    constructor
    · rintro ⟨k, hk, s, rfl, hs⟩
      obtain rfl := Option.some.inj hk
      cases hs
      simp
    · rintro ⟨rfl, -⟩
      exact ⟨_, rfl, [], by simp, .enum⟩

theorem kindAt_struct (n : String) (r : VResult) (p : Place) :
    KindAt n (structKind r) p ↔ ∃ s, p = hop n ++ s ∧ Noted r s := by
  unfold structKind
  split
  · rename_i h
    subst h
    simp [kindAt_none, noted_nil]
  · constructor
    · rintro ⟨k, hk, s, rfl, hs⟩
      obtain rfl := Option.some.inj hk
      cases hs with
      | struct h => exact ⟨s, rfl, h⟩
    · rintro ⟨s, rfl, h⟩
      exact ⟨_, rfl, s, rfl, .struct h⟩

theorem kindAt_list (n : String) (errs : List (Nat × VResult)) (p : Place) :
    KindAt n (listKind errs) p ↔
      ∃ i r s, (i, r) ∈ errs ∧ p = hop n ++ .item i :: s ∧ Noted r s := by
  unfold listKind
  split
  · rename_i h
    subst h
    simp [kindAt_none]
  · constructor
    · rintro ⟨k, hk, s, rfl, hs⟩
      obtain rfl := Option.some.inj hk
      cases hs with
      | list h h' => exact ⟨_, _, _, h, rfl, h'⟩
    · rintro ⟨i, r, s, h, rfl, h'⟩
      exact ⟨_, rfl, _, rfl, .list h h'⟩

theorem notes_ok (n : String) : Notes .ok n fun _ => False :=
  ⟨none, reports_ok n, fun p => by simp [kindAt_none]⟩

theorem notes_field {α : Type} (n : String) (x : α) (g : α → Check) :
    Notes (addField n x g) n fun p => p = hop n ∧ g x ≠ .ok () :=
  ⟨_, reports_field n x g, kindAt_field n (g x)⟩

theorem notes_enum {α : Type} (n : String) (x : α) (g : α → Check) :
    Notes (addEnum n x g) n fun p => p = hop n ∧ g x ≠ .ok () :=
  ⟨_, reports_enum n x g, kindAt_enum n (g x)⟩

theorem notes_struct {α : Type} (n : String) (x : α) (g : α → Res VResult)
    (h : ∃ a, g x = .ok a) :
    Notes (addStruct n x g) n fun p => ∃ s, p = hop n ++ s ∧ TellsOf (g x) s := by
  obtain ⟨a, ha⟩ := h
  refine ⟨structKind a, ?_, fun p => ?_⟩
  · unfold addStruct; rw [ha]; exact reports_structResult n a
  · rw [kindAt_struct, ha]
    simp only [tells_ok]

theorem notes_list {α : Type} (n : String) (l : List α) (g : α → Res VResult)
    (h : ∀ x ∈ l, ∃ a, g x = .ok a) :
    Notes (addList n l g) n fun p =>
      ∃ i x s, l[i]? = some x ∧ p = hop n ++ .item i :: s ∧ TellsOf (g x) s := by
  obtain ⟨rs, h1, h2⟩ := mapM_validate h
  refine ⟨listKind (numbered rs), ?_, fun p => ?_⟩
  · unfold addList; rw [h1]; exact reports_listResults n rs
  · rw [kindAt_list]
    have key : ∀ i, (l[i]?).map g = (rs[i]?).map .ok := fun i => by
      rw [← List.getElem?_map, ← List.getElem?_map, h2]
    constructor
    · rintro ⟨i, r, s, hm, rfl, hn⟩
      have := ((numbered_entries rs).2 i r).mp hm
      have hk := key i
      rw [this.1] at hk
      cases hx : l[i]? with
      | none => rw [hx] at hk; cases hk
      | some x =>
        rw [hx] at hk
        exact ⟨i, x, s, hx, rfl, r, Option.some.inj hk, hn⟩
    · rintro ⟨i, x, s, hx, rfl, r, hr, hn⟩
      have hk := key i
      rw [hx] at hk
      cases hrs : rs[i]? with
      | none => rw [hrs] at hk; cases hk
      | some r' =>
        rw [hrs] at hk
        have : g x = .ok r' := Option.some.inj hk
        rw [hr] at this
        obtain rfl := Except.ok.inj this
        refine ⟨i, r, s, ((numbered_entries rs).2 i r).mpr ⟨hrs, ?_⟩, rfl, hn⟩
        rintro rfl
        exact noted_nil _ hn

theorem notes_unique {α : Type} [DecidableEq α] (n : String) (l : List α) (g : α → Res VResult)
    (h : ∀ x ∈ l, ∃ a, g x = .ok a) :
    Notes (addUniqueList n l g) n fun p => ∃ i x, l[i]? = some x ∧
      (x ∈ l.take i ∧ p = hop n ++ [.item i] ∨
       x ∉ l.take i ∧ ∃ s, p = hop n ++ .item i :: s ∧ TellsOf (g x) s) := by
  obtain ⟨errs, h1, h2⟩ := uniqueErrors_spec h
  refine ⟨listKind errs, reports_uniqueResults n l g errs h1, fun p => ?_⟩
  rw [kindAt_list]
  constructor
  · rintro ⟨i, r, s, hm, rfl, hn⟩
    obtain ⟨x, hx, ⟨hx', rfl⟩ | ⟨hx', hg, hr⟩⟩ := (h2.2 i r).mp hm
    · obtain ⟨rfl, -⟩ := (noted_ofCheck (.error "repeated element") s).mp hn
      exact ⟨i, x, hx, .inl ⟨hx', rfl⟩⟩
    · exact ⟨i, x, hx, .inr ⟨hx', s, rfl, r, hg, hn⟩⟩
  · rintro ⟨i, x, hx, ⟨hx', rfl⟩ | ⟨hx', s, rfl, r, hg, hn⟩⟩
    · exact ⟨i, _, [], (h2.2 i _).mpr ⟨x, hx, .inl ⟨hx', rfl⟩⟩, rfl,
        (noted_ofCheck (.error "repeated element") []).mpr ⟨rfl, by simp⟩⟩
    · refine ⟨i, r, s, (h2.2 i r).mpr ⟨x, hx, .inr ⟨hx', hg, ?_⟩⟩, rfl, hn⟩
      rintro rfl
      exact noted_nil _ hn

theorem notes_custom (n e : String) : Notes (addCustom n e) n fun p => p = hop n := by
  refine ⟨_, reports_custom n e, fun p => ?_⟩
  constructor
  · rintro ⟨k, hk, s, rfl, hs⟩
    obtain rfl := Option.some.inj hk
    cases hs
    simp
  · rintro rfl
    exact ⟨_, rfl, [], by simp, .custom (List.mem_singleton.mpr rfl)⟩

/-! ## Calls for the parts of an element -/

section
variable {E : VEnv} {v : SpecVersion}

theorem under_nil (p : Place) : Under E v [] p ↔ False := by simp [Under]

theorem under_append (a b : List (Place × Elem)) (p : Place) :
    Under E v (a ++ b) p ↔ Under E v a p ∨ Under E v b p := by
  simp only [Under, List.mem_append, or_and_right, exists_or]

theorem under_one (n : String) (e : Elem) (p : Place) :
    Under E v (oneAt n e) p ↔ ∃ s, p = hop n ++ s ∧ TellsOf (e.outcome E v) s := by
  simp [Under, oneAt]

theorem under_listAt {α : Type} (n : String) (f : α → Elem) (l : List α) (p : Place) :
    Under E v (listAt n f l) p ↔
      ∃ i x s, l[i]? = some x ∧ p = hop n ++ .item i :: s ∧ TellsOf ((f x).outcome E v) s := by
  constructor
  · rintro ⟨y, hy, s, rfl, hs⟩
    obtain ⟨⟨x, i⟩, hm, rfl⟩ := List.mem_map.mp hy
    exact ⟨i, x, s, List.mk_mem_zipIdx_iff_getElem?.mp hm, by simp, hs⟩
  · rintro ⟨i, x, s, hx, rfl, hs⟩
    exact ⟨_, List.mem_map.mpr ⟨(x, i), List.mk_mem_zipIdx_iff_getElem?.mpr hx, rfl⟩, s, by simp, hs⟩

theorem under_firstAt {α : Type} [DecidableEq α] (n : String) (f : α → Elem)
    (l : Option (List α)) (p : Place) :
    Under E v (firstAt n f l) p ↔
      ∃ i x, (l.getD [])[i]? = some x ∧ x ∉ (l.getD []).take i ∧
        ∃ s, p = hop n ++ .item i :: s ∧ TellsOf ((f x).outcome E v) s := by
  constructor
  · rintro ⟨y, hy, s, rfl, hs⟩
    obtain ⟨⟨x, i⟩, hm, rfl⟩ := List.mem_map.mp hy
    obtain ⟨hm, hf⟩ := List.mem_filter.mp hm
    exact ⟨i, x, List.mk_mem_zipIdx_iff_getElem?.mp hm, by simpa using hf, s, by simp, hs⟩
  · rintro ⟨i, x, hx, hf, s, rfl, hs⟩
    exact ⟨_, List.mem_map.mpr ⟨(x, i), List.mem_filter.mpr
      ⟨List.mk_mem_zipIdx_iff_getElem?.mpr hx, by simpa using hf⟩, rfl⟩, s, by simp, hs⟩

theorem under_below (n : String) (l : List (Place × Elem)) (p : Place) :
    Under E v (below n l) p ↔ ∃ s, p = hop n ++ s ∧ Under E v l s := by
  constructor
  · rintro ⟨y, hy, s, rfl, hs⟩
    obtain ⟨z, hz, rfl⟩ := List.mem_map.mp hy
    exact ⟨_, List.append_assoc .., z, hz, s, rfl, hs⟩
  · rintro ⟨_, rfl, z, hz, s, rfl, hs⟩
    exact ⟨_, List.mem_map.mpr ⟨z, hz, rfl⟩, s, by simp, hs⟩

theorem under_sole (n : String) (l : List (Place × Elem)) (p : Place) :
    Under E v (soleAt n l) p ↔ ∃ s, p = hop n ++ .item 0 :: s ∧ Under E v l s := by
  constructor
  · rintro ⟨y, hy, s, rfl, hs⟩
    obtain ⟨z, hz, rfl⟩ := List.mem_map.mp hy
    exact ⟨_, by simp, z, hz, s, rfl, hs⟩
  · rintro ⟨_, rfl, z, hz, s, rfl, hs⟩
    exact ⟨_, List.mem_map.mpr ⟨z, hz, rfl⟩, s, by simp, hs⟩

theorem total_outcome (E : VEnv) (v : SpecVersion) (e : Elem) : ∃ a, e.outcome E v = .ok a :=
  (Elem.good E v e).1

section
variable {α : Type} (n : String) (f : α → Elem)

theorem at_field {g : α → Check} (x : α)
    (h : ∀ y, (f y).outcome E v = .ok (.ofCheck (g y))) :
    Notes (addField n x g) n (Under E v (oneAt n (f x))) :=
  (notes_field n x g).congr fun p => by
    rw [under_one, h]
    simp only [tells_ofCheck]
    exact ⟨fun ⟨h1, h2⟩ => ⟨[], by simp [h1], rfl, h2⟩, fun ⟨s, h1, h2, h3⟩ => ⟨by simp [h1, h2], h3⟩⟩

theorem at_enum {g : α → Check} (x : α)
    (h : ∀ y, (f y).outcome E v = .ok (.ofCheck (g y))) :
    Notes (addEnum n x g) n (Under E v (oneAt n (f x))) :=
  (notes_enum n x g).congr fun p => by
    rw [under_one, h]
    simp only [tells_ofCheck]
    exact ⟨fun ⟨h1, h2⟩ => ⟨[], by simp [h1], rfl, h2⟩, fun ⟨s, h1, h2, h3⟩ => ⟨by simp [h1, h2], h3⟩⟩

theorem at_struct {g : α → Res VResult} (x : α) (h : ∀ y, (f y).outcome E v = g y) :
    Notes (addStruct n x g) n (Under E v (oneAt n (f x))) :=
  (notes_struct n x g (h x ▸ total_outcome E v (f x))).congr fun p => by
    rw [under_one, h]

theorem at_none {s : VStep} (hs : s = .ok) : Notes s n (Under E v []) :=
  hs ▸ (notes_ok n).congr fun p => by simp [under_nil]

theorem at_fieldOption {g : α → Check} (x : Option α)
    (h : ∀ y, (f y).outcome E v = .ok (.ofCheck (g y))) :
    Notes (addFieldOption n x g) n (Under E v (optAt n f x)) :=
  match x with
  | none => at_none n rfl
  | some x => at_field n f x h

theorem at_enumOption {g : α → Check} (x : Option α)
    (h : ∀ y, (f y).outcome E v = .ok (.ofCheck (g y))) :
    Notes (addEnumOption n x g) n (Under E v (optAt n f x)) :=
  match x with
  | none => at_none n rfl
  | some x => at_enum n f x h

theorem at_structOption {g : α → Res VResult} (x : Option α)
    (h : ∀ y, (f y).outcome E v = g y) :
    Notes (addStructOption n x g) n (Under E v (optAt n f x)) :=
  match x with
  | none => at_none n rfl
  | some x => at_struct n f x h

theorem at_list {g : α → Res VResult} (l : List α) (h : ∀ y, (f y).outcome E v = g y) :
    Notes (addList n l g) n (Under E v (listAt n f l)) :=
  (notes_list n l g fun x _ => h x ▸ total_outcome E v (f x)).congr fun p => by
    rw [under_listAt]; simp only [h]

theorem at_listOption {g : α → Res VResult} (x : Option (List α))
    (h : ∀ y, (f y).outcome E v = g y) :
    Notes (addListOption n x g) n (Under E v (manyAt n f x)) :=
  match x with
  | none => at_none n rfl
  | some l => at_list n f l h

theorem again_iff {l : Option (List α)} {p : Place} : Again n l p ↔
    ∃ i x, (l.getD [])[i]? = some x ∧ x ∈ (l.getD []).take i ∧ p = hop n ++ [.item i] := Iff.rfl

theorem at_unique [DecidableEq α] {g : α → Res VResult} (x : Option (List α))
    (h : ∀ y, (f y).outcome E v = g y) :
    Notes (addUniqueListOption n x g) n
      (fun p => Again n x p ∨ Under E v (firstAt n f x) p) :=
  match x with
  | none => (notes_ok n).congr fun p => by simp [Again, firstAt, under_nil]
  | some l => (notes_unique n l g fun x _ => h x ▸ total_outcome E v (f x)).congr fun p => by
    rw [under_firstAt, again_iff]
    simp only [Option.getD_some, h, and_or_left, exists_or]

theorem at_uniqueSkip [DecidableEq α] (x : Option (List α)) :
    Notes (addUniqueListOption n x (fun _ : α => .ok [])) n (Again n x) :=
  match x with
  | none => (notes_ok n).congr fun p => by simp [Again]
  | some l => (notes_unique n l (fun _ : α => .ok []) fun x _ => ⟨_, rfl⟩).congr fun p => by
    simp only [tells_ok, noted_nil, and_false, exists_false, or_false, again_iff, Option.getD_some]

/-- A validation of a list that is wrapped in a structure. -/
theorem tells_wrapped {m : String} {w : List α → Res VResult} {g : α → Res VResult}
    (hw : ∀ l, w l = chain [addList m l g]) (h : ∀ y, (f y).outcome E v = g y) (l : List α)
    (p : Place) : TellsOf (w l) p ↔ Under E v (listAt m f l) p := by
  rw [hw, notes_chain [(m, Under E v (listAt m f l))] (notesCons (at_list m f l h) .nil)
    (by simp)]
  simp

theorem total_wrapped {m : String} {w : List α → Res VResult} {g : α → Res VResult}
    (hw : ∀ l, w l = chain [addList m l g]) (h : ∀ y, (f y).outcome E v = g y) (l : List α) :
    ∃ a, w l = .ok a := by
  rw [hw]
  obtain ⟨k, hk, -⟩ := at_list (E := E) (v := v) m f l h
  exact ⟨_, chain_reports (specs := [(m, k)]) (.cons hk .nil) (by simp)⟩

theorem at_wrapped {m : String} {w : List α → Res VResult} {g : α → Res VResult}
    (x : Option (List α)) (hw : ∀ l, w l = chain [addList m l g])
    (h : ∀ y, (f y).outcome E v = g y) :
    Notes (addStructOption n x w) n (Under E v (below n (manyAt m f x))) :=
  match x with
  | none => at_none n rfl
  | some l => (notes_struct n l w (total_wrapped f hw h l)).congr fun p => by
    rw [under_below]
    simp only [tells_wrapped f hw h]
    rfl

theorem at_sole {m : String} {w : List α → Res VResult} {g : α → Res VResult}
    (x : Option (List α)) (hw : ∀ l, w l = chain [addList m l g])
    (h : ∀ y, (f y).outcome E v = g y) :
    Notes (addList n x.toList w) n (Under E v (soleAt n (manyAt m f x))) :=
  match x with
  | none => (notes_list n [] w (by simp)).congr fun p => by simp [manyAt, listAt, soleAt, under_nil]
  | some l => (notes_list n [l] w (by simpa using total_wrapped f hw h l)).congr fun p => by
    rw [under_sole]
    constructor
    · rintro ⟨i, x, s, hx, rfl, hs⟩
      cases i with
      | zero =>
        obtain rfl := Option.some.inj hx
        exact ⟨s, rfl, (tells_wrapped f hw h _ s).mp hs⟩
      | succ i => simp at hx
    · rintro ⟨s, rfl, hs⟩
      exact ⟨0, l, s, rfl, rfl, (tells_wrapped f hw h _ s).mpr hs⟩

theorem at_soleOne {g : α → Res VResult} (x : Option α) (h : ∀ y, (f y).outcome E v = g y) :
    Notes (addList n x.toList g) n (Under E v (soleAt n (optAt "" f x))) :=
  (at_list n f x.toList h).congr fun p => by
    rw [under_sole, under_listAt]
    cases x with
    | none => simp [optAt, under_nil]
    | some x =>
      constructor
      · rintro ⟨i, y, s, hx, rfl, hs⟩
        cases i with
        | zero =>
          obtain rfl := Option.some.inj hx
          exact ⟨s, rfl, (under_one "" (f x) s).mpr ⟨s, rfl, hs⟩⟩
        | succ i => simp at hx
      · rintro ⟨s, rfl, hs⟩
        obtain ⟨s', rfl, hs⟩ := (under_one "" (f x) s).mp hs
        exact ⟨0, x, _, rfl, rfl, hs⟩

end

/-- A call that never reports. -/
theorem at_skip {s : VStep} {n : String} {P : Prop} (h : Good s n P) (hP : P) :
    Notes s n (Under E v []) := by
  obtain ⟨k, hk, hk'⟩ := h
  obtain rfl := hk'.mpr hP
  exact ⟨none, hk, fun p => by simp [kindAt_none, under_nil]⟩

end

end Cdx
