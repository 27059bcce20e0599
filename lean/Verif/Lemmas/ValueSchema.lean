import Verif.Lemmas.Value
import Verif.Lemmas.Schema
import Verif.Lemmas.Lossless

/-!
# Lemmas: what a document is asked to be does not depend on the order of members
-/

set_option linter.unusedSectionVars false

namespace Cdx

open Spec

section
variable {G : List (List String)} {x y : Json} {l m : List Json} {o p : List (String × Json)} {k : String}

theorem Spec.Reordered.symm (h : Reordered G x y) : Reordered G y x := by
  induction h with
  | null => exact .null
  | bool b => exact .bool b
  | nat n => exact .nat n
  | float x => exact .float x
  | other => exact .other
  | str s => exact .str s
  | nil => exact .nil
  | cons _ _ ih1 ih2 => exact .cons ih1 ih2
  | obj h1 h2 h3 h4 h5 ih =>
    exact .obj h2 h1 (fun k => (h3 k).symm) (fun k x y hx hy => ih k y x hy hx) fun n hn => (h5 n hn).symm

theorem Spec.Reordered.arr_inv (h : Reordered G x (.arr m)) : ∃ l, x = .arr l ∧ Reordered G (.arr l) (.arr m) := by
  cases h with
  | nil => exact ⟨_, rfl, .nil⟩
  | cons h1 h2 => exact ⟨_, rfl, .cons h1 h2⟩

theorem Spec.Reordered.obj_inv (h : Reordered G x (.obj p)) : ∃ o, x = .obj o ∧ Reordered G (.obj o) (.obj p) := by
  cases h with
  | obj h1 h2 h3 h4 h5 => exact ⟨_, rfl, .obj h1 h2 h3 h4 h5⟩

theorem Spec.Reordered.str_inv {s : String} (h : Reordered G x (.str s)) : x = .str s := by cases h; rfl

theorem Spec.Reordered.nat_inv {n : Nat} (h : Reordered G x (.nat n)) : x = .nat n := by cases h; rfl

theorem Spec.Reordered.other_inv (h : Reordered G x .other) : x = .other := by cases h; rfl

theorem Spec.Reordered.length (h : Reordered G (.arr l) (.arr m)) : l.length = m.length := by
  induction l generalizing m with
  | nil => cases h; rfl
  | cons x l ih => cases h with | cons _ h => simp [ih h]

theorem Spec.Reordered.item (h : Reordered G (.arr l) (.arr m)) (hy : y ∈ m) : ∃ x ∈ l, Reordered G x y := by
  induction l generalizing m with
  | nil => cases h; cases hy
  | cons z l ih =>
    cases h with
    | cons h1 h2 =>
      cases hy with
      | head => exact ⟨z, .head _, h1⟩
      | tail _ hy =>
        obtain ⟨x, hx, hr⟩ := ih h2 hy
        exact ⟨x, .tail _ hx, hr⟩

theorem Spec.Reordered.itemAt (h : Reordered G (.arr l) (.arr m)) {i : Nat} (hy : m[i]? = some y) :
    ∃ x, l[i]? = some x ∧ Reordered G x y := by
  induction l generalizing m i with
  | nil => cases h; cases hy
  | cons z l ih =>
    cases h with
    | cons h1 h2 =>
      cases i with
      | zero => cases hy; exact ⟨z, rfl, h1⟩
      | succ i => exact ih h2 hy

theorem Spec.Reordered.member (h : Reordered G (.obj o) (.obj p)) (hy : (k, y) ∈ p) :
    ∃ x, (k, x) ∈ o ∧ Reordered G x y := by
  cases h with
  | obj h1 h2 h3 h4 h5 =>
    obtain ⟨x, hx⟩ := (h3 k).mpr ⟨y, hy⟩
    exact ⟨x, hx, h4 k x y hx hy⟩

theorem Spec.Reordered.names (h : Reordered G (.obj o) (.obj p)) : (∃ x, (k, x) ∈ o) ↔ ∃ y, (k, y) ∈ p := by
  cases h with
  | obj h1 h2 h3 h4 h5 => exact h3 k

theorem Spec.Reordered.has (h : Reordered G x y) : Has k x ↔ Has k y := by
  constructor
  · rintro ⟨o, z, rfl, hz⟩
    obtain ⟨p, rfl, h'⟩ := h.symm.obj_inv
    obtain ⟨w, hw, -⟩ := h'.member hz
    exact ⟨p, w, rfl, hw⟩
  · rintro ⟨o, z, rfl, hz⟩
    obtain ⟨p, rfl, h⟩ := h.obj_inv
    obtain ⟨w, hw, -⟩ := h.member hz
    exact ⟨p, w, rfl, hw⟩

/-- Values that are the same stay so when members are reordered. -/
theorem Spec.Same.reordered (h : Same x y) : ∀ {x' y' : Json}, Reordered G x x' → Reordered G y y' → Same x' y' := by
  induction h with
  | null => intro _ _ h1 h2; cases h1; cases h2; exact .null
  | bool b => intro _ _ h1 h2; cases h1; cases h2; exact .bool b
  | nat n => intro _ _ h1 h2; cases h1; cases h2; exact .nat n
  | float e => intro _ _ h1 h2; cases h1; cases h2; exact .float e
  | natFloat e => intro _ _ h1 h2; cases h1; cases h2; exact .natFloat e
  | floatNat e => intro _ _ h1 h2; cases h1; cases h2; exact .floatNat e
  | other => intro _ _ h1 h2; cases h1; cases h2; exact .other
  | str s => intro _ _ h1 h2; cases h1; cases h2; exact .str s
  | nil => intro _ _ h1 h2; cases h1; cases h2; exact .nil
  | cons _ _ ih1 ih2 =>
    intro _ _ h1 h2
    cases h1 with | cons h1 h1' =>
    cases h2 with | cons h2 h2' =>
    exact .cons (ih1 h1 h2) (ih2 h1' h2')
  | @obj o p hk hv ih =>
    intro _ _ h1 h2
    obtain ⟨o', rfl, -⟩ := h1.symm.obj_inv
    obtain ⟨p', rfl, -⟩ := h2.symm.obj_inv
    refine .obj (fun k => ?_) fun k x y hx hy => ?_
    · rw [← h1.names, hk, h2.names]
    · obtain ⟨a, ha, hax⟩ := h1.member hx
      obtain ⟨b, hb, hby⟩ := h2.member hy
      exact ih k a b ha hb hax hby

theorem Spec.Reordered.refl_of_unique {j : Json} (h : j.Unique) : Reordered G j j := by
  refine Json.byParts (P := fun j => j.Unique → Reordered G j j) (fun _ => .null) (fun _ _ => .bool _)
    (fun _ _ => .nat _) (fun _ _ => .float _) (fun _ => .other) (fun _ _ => .str _) ?_ ?_ j h
  · intro l ih hu
    cases hu with | arr hu =>
    clear h
    induction l with
    | nil => exact .nil
    | cons x l ih2 =>
      exact .cons (ih x (.head _) (hu x (.head _))) (ih2 (fun j hj => ih j (.tail _ hj)) fun j hj => hu j (.tail _ hj))
  · intro o ih hu
    cases hu with | obj hn hu =>
    refine .obj hn hn (fun _ => .rfl) (fun k x y hx hy => ?_) fun _ _ => rfl
    cases mem_same hn hx hy
    exact ih _ hx (hu _ hx)

theorem Spec.Reordered.unique (h : Reordered G x y) : y.Unique := by
  induction h with
  | null => exact .null
  | bool => exact .bool
  | nat => exact .nat
  | float => exact .float
  | other => exact .other
  | str => exact .str
  | nil => exact .arr nofun
  | cons _ _ ih1 ih2 =>
    cases ih2 with | arr ih2 =>
    refine .arr fun j hj => ?_
    cases hj with
    | head => exact ih1
    | tail _ hj => exact ih2 j hj
  | @obj o p h1 h2 h3 h4 h5 ih =>
    refine .obj h2 fun m hm => ?_
    obtain ⟨x, hx⟩ := (h3 m.1).mpr ⟨m.2, hm⟩
    exact ih m.1 x m.2 hx hm

theorem holds_reordered {F : Formats} {c : Keyword} (h : Reordered G x y) (hc : c.Holds F x) : c.Holds F y := by
  cases c with
  | type t => cases h <;> first | exact hc | (cases t <;> exact hc)
  | enum l =>
    obtain ⟨s, hs, rfl⟩ := hc
    rw [h.symm.str_inv]
    exact ⟨s, hs, rfl⟩
  | required l =>
    cases y with
    | obj p =>
      obtain ⟨o, rfl, h⟩ := h.obj_inv
      exact fun k hk => h.names.mp (hc k hk)
    | _ => trivial
  | closed l =>
    cases y with
    | obj p =>
      obtain ⟨o, rfl, h⟩ := h.obj_inv
      intro k y hy
      obtain ⟨x, hx, -⟩ := h.member hy
      exact hc k x hx
    | _ => trivial
  | uniqueItems =>
    cases y with
    | arr m =>
      obtain ⟨l, rfl, -⟩ := h.arr_inv
      have hc : l.Pairwise fun x y => ¬ Same x y := hc
      show m.Pairwise fun x y => ¬ Same x y
      induction l generalizing m with
      | nil => cases h; exact .nil
      | cons x l ih =>
        cases h with
        | cons h1 h2 =>
          rw [List.pairwise_cons] at hc ⊢
          refine ⟨fun z hz hs => ?_, ih _ hc.2 h2 hc.2⟩
          obtain ⟨w, hw, hr⟩ := h2.item hz
          exact hc.1 w hw (hs.reordered h1.symm hr.symm)
    | _ => trivial
  | minItems n =>
    cases y with
    | arr m =>
      obtain ⟨l, rfl, h⟩ := h.arr_inv
      have hc : n ≤ l.length := hc
      rw [h.length] at hc
      exact hc
    | _ => trivial
  | maxItems n =>
    cases y with
    | arr m =>
      obtain ⟨l, rfl, h⟩ := h.arr_inv
      have hc : l.length ≤ n := hc
      rw [h.length] at hc
      exact hc
    | _ => trivial
  | _ => cases h <;> first | exact hc | trivial

mutual

theorem Spec.Valid.reordered {C : Context} : ∀ {s : Schema} {x y : Json}, Valid C s x → Reordered G x y → Valid C s y
  | _, _, _, .kw h, hr => .kw (holds_reordered hr h)
  | _, _, _, .properties h, hr => .properties fun p e k s y hs hy => by
    rw [e] at hr
    obtain ⟨o, e', hr'⟩ := hr.obj_inv
    obtain ⟨x, hx, hr''⟩ := hr'.member hy
    exact Spec.Valid.reordered (h o e' k s x hs hx) hr''
  | _, _, _, .items h, hr => .items fun m e y hy => by
    rw [e] at hr
    obtain ⟨l, e', hr'⟩ := hr.arr_inv
    obtain ⟨x, hx, hr''⟩ := hr'.item hy
    exact Spec.Valid.reordered (h l e' x hx) hr''
  | _, _, _, .itemAt h, hr => .itemAt fun m y e hy => by
    rw [e] at hr
    obtain ⟨l, e', hr'⟩ := hr.arr_inv
    obtain ⟨x, hx, hr''⟩ := hr'.itemAt hy
    exact Spec.Valid.reordered (h l x e' hx) hr''
  | _, _, _, .allOf h, hr => .allOf fun s hs => Spec.Valid.reordered (h s hs) hr
  | _, _, _, .anyOf hs h, hr => .anyOf hs (Spec.Valid.reordered h hr)
  | _, _, _, .oneOf h h1 h2, hr =>
    .oneOf (Spec.Valid.reordered h hr) (fun t ht => Spec.Invalid.reordered (h1 t ht) hr)
      fun t ht => Spec.Invalid.reordered (h2 t ht) hr
  | _, _, _, .then h1 h2, hr => .then (Spec.Valid.reordered h1 hr) (Spec.Valid.reordered h2 hr)
  | _, _, _, .ifNot h, hr => .ifNot (Spec.Invalid.reordered h hr)
  | _, _, _, .ref hn h, hr => .ref hn (Spec.Valid.reordered h hr)

theorem Spec.Invalid.reordered {C : Context} : ∀ {s : Schema} {x y : Json}, Invalid C s x → Reordered G x y → Invalid C s y
  | _, _, _, .kw h, hr => .kw fun h' => h (holds_reordered hr.symm h')
  | _, _, _, .properties h1 h2 h3, hr => by
    obtain ⟨p, rfl, hr'⟩ := hr.symm.obj_inv
    obtain ⟨y, hy, hr''⟩ := hr'.member h2
    exact .properties h1 hy (Spec.Invalid.reordered h3 hr''.symm)
  | _, _, _, .items h1 h2, hr => by
    obtain ⟨m, rfl, hr'⟩ := hr.symm.arr_inv
    obtain ⟨y, hy, hr''⟩ := hr'.item h1
    exact .items hy (Spec.Invalid.reordered h2 hr''.symm)
  | _, _, _, .itemAt h1 h2, hr => by
    obtain ⟨m, rfl, hr'⟩ := hr.symm.arr_inv
    obtain ⟨y, hy, hr''⟩ := hr'.itemAt h1
    exact .itemAt hy (Spec.Invalid.reordered h2 hr''.symm)
  | _, _, _, .allOf hs h, hr => .allOf hs (Spec.Invalid.reordered h hr)
  | _, _, _, .anyOf h, hr => .anyOf fun s hs => Spec.Invalid.reordered (h s hs) hr
  | _, _, _, .oneOfNone h, hr => .oneOfNone fun s hs => Spec.Invalid.reordered (h s hs) hr
  | _, _, _, .oneOfTwo h1 h2, hr => .oneOfTwo (Spec.Valid.reordered h1 hr) (Spec.Valid.reordered h2 hr)
  | _, _, _, .ifThen h1 h2, hr => .ifThen (Spec.Valid.reordered h1 hr) (Spec.Invalid.reordered h2 hr)
  | _, _, _, .ref hn h, hr => .ref hn (Spec.Invalid.reordered h hr)

end

theorem Spec.Within.reordered {n : Nat} (h : Within n x) : ∀ {y : Json}, Reordered G x y → Within n y := by
  induction h with
  | null => intro _ h; cases h; exact .null
  | bool => intro _ h; cases h; exact .bool
  | nat => intro _ h; cases h; exact .nat
  | float => intro _ h; cases h; exact .float
  | other => intro _ h; cases h; exact .other
  | str => intro _ h; cases h; exact .str
  | arr _ ih =>
    intro _ h
    obtain ⟨m, rfl, -⟩ := h.symm.arr_inv
    refine .arr fun j hj => ?_
    obtain ⟨x, hx, hr⟩ := h.item hj
    exact ih x hx hr
  | obj _ ih =>
    intro _ h
    obtain ⟨p, rfl, -⟩ := h.symm.obj_inv
    refine .obj fun m hm => ?_
    obtain ⟨x, hx, hr⟩ := h.member (k := m.1) (y := m.2) hm
    exact ih (m.1, x) hx hr

theorem Spec.Everywhere.reordered {P : List (String × Json) → Prop}
    (hP : ∀ o p, Reordered G (.obj o) (.obj p) → P o → P p) (h : Everywhere P x) :
    ∀ {y : Json}, Reordered G x y → Everywhere P y := by
  induction h with
  | null => intro _ h; cases h; exact .null
  | bool => intro _ h; cases h; exact .bool
  | nat => intro _ h; cases h; exact .nat
  | float => intro _ h; cases h; exact .float
  | other => intro _ h; cases h; exact .other
  | str => intro _ h; cases h; exact .str
  | arr _ ih =>
    intro _ h
    obtain ⟨m, rfl, -⟩ := h.symm.arr_inv
    refine .arr fun j hj => ?_
    obtain ⟨x, hx, hr⟩ := h.item hj
    exact ih x hx hr
  | obj hp _ ih =>
    intro _ h
    obtain ⟨p, rfl, -⟩ := h.symm.obj_inv
    refine .obj (hP _ _ h hp) fun m hm => ?_
    obtain ⟨x, hx, hr⟩ := h.member (k := m.1) (y := m.2) hm
    exact ih (m.1, x) hx hr

theorem Spec.Small.reordered (h : Reordered G x y) (hx : Small x) : Small y := by
  obtain ⟨n, hn, rfl⟩ := hx
  exact ⟨n, hn, h.symm.nat_inv⟩

theorem Spec.OnlyHas.reordered {ks : List String} (h : Reordered G (.obj o) (.obj p)) (ho : OnlyHas ks o) :
    OnlyHas ks p := by
  intro k y hy
  obtain ⟨x, hx, -⟩ := h.member hy
  exact ho k x hx

theorem readable_reordered (h : Reordered G (.obj o) (.obj p)) (hr : Readable o) : Readable p := by
  -- what is there, is there before
  have mem : ∀ {k y}, (k, y) ∈ p → ∃ x, (k, x) ∈ o ∧ Reordered G x y := fun hy => h.member hy
  have arr : ∀ {k m}, (k, .arr m) ∈ p → ∃ l, (k, .arr l) ∈ o ∧ ∀ y ∈ m, ∃ x ∈ l, Reordered G x y := by
    intro k m hm
    obtain ⟨x, hx, hr⟩ := mem hm
    obtain ⟨l, rfl, hr⟩ := hr.arr_inv
    exact ⟨l, hx, fun y hy => hr.item hy⟩
  exact {
    small := fun k y hy hk hn => by
      obtain ⟨x, hx, hxy⟩ := mem hy
      refine (hr.small k x hx hk ?_).reordered hxy
      exact holds_reordered (c := .type .number) (F := fun _ _ => True) hxy.symm hn
    cwes := fun m hm y hy => by
      obtain ⟨l, hl, hi⟩ := arr hm
      obtain ⟨x, hx, hxy⟩ := hi y hy
      exact (hr.cwes l hl x hx).reordered hxy
    numbers := fun k hk => by
      obtain ⟨x, hx, hxy⟩ := mem hk
      rw [hxy.other_inv] at hx
      exact hr.numbers k hx
    named := fun m hm y hy => by
      obtain ⟨l, hl, hi⟩ := arr hm
      obtain ⟨x, hx, hxy⟩ := hi y hy
      have := hr.named l hl x hx
      exact ⟨hxy.has.mp this.1, hxy.has.mp this.2⟩
    environment := fun m hm y hy => by
      obtain ⟨l, hl, hi⟩ := arr hm
      obtain ⟨x, hx, hxy⟩ := hi y hy
      rcases hr.environment l hl x hx with ⟨s, rfl⟩ | this
      · exact .inl ⟨s, hxy.symm.str_inv⟩
      · exact .inr ⟨hxy.has.mp this.1, hxy.has.mp this.2⟩
    versions := fun m hm y hy => by
      obtain ⟨l, hl, hi⟩ := arr hm
      obtain ⟨x, hx, hxy⟩ := hi y hy
      exact hxy.has.mp (hr.versions l hl x hx)
    targets := fun m hm y hy => by
      obtain ⟨l, hl, hi⟩ := arr hm
      obtain ⟨x, hx, hxy⟩ := hi y hy
      obtain ⟨q, rfl⟩ := hr.targets l hl x hx
      obtain ⟨q', rfl, -⟩ := hxy.symm.obj_inv
      exact ⟨q', rfl⟩
    references := fun m ht hm y hy => by
      obtain ⟨l, hl, hi⟩ := arr hm
      obtain ⟨x, hx, hxy⟩ := hi y hy
      obtain ⟨q, rfl⟩ := hr.references l (fun h' => ht (h.has.mp h')) hl x hx
      obtain ⟨q', rfl, -⟩ := hxy.symm.obj_inv
      exact ⟨q', rfl⟩
    frames := fun y hy => by
      obtain ⟨x, hx, hxy⟩ := mem hy
      exact hxy.has.mp (hr.frames x hx)
    data := fun ht m hm => by
      obtain ⟨l, hl, -⟩ := arr hm
      exact hr.data (h.has.mpr ht) l hl
    signature := fun y hy => by
      obtain ⟨x, hx, hxy⟩ := mem hy
      obtain ⟨q, a, rfl, ha, hal⟩ := hr.signature x hx
      obtain ⟨q', rfl, hq⟩ := hxy.symm.obj_inv
      obtain ⟨b, hb, hab⟩ := hq.member ha
      rw [hab.str_inv] at hb
      exact ⟨q', a, rfl, hb, hal⟩
    datasets := fun m hm y hy => by
      obtain ⟨l, hl, hi⟩ := arr hm
      obtain ⟨x, hx, hxy⟩ := hi y hy
      exact hxy.has.mp (hr.datasets l hl x hx)
    sensitive := fun y hy => by
      obtain ⟨x, hx, -⟩ := mem hy
      exact hr.sensitive x hx
    governance := fun ht q hq k hk m hm => by
      obtain ⟨x, hx, hxy⟩ := mem hq
      obtain ⟨q', rfl, hqq⟩ := hxy.obj_inv
      obtain ⟨z, hz, hzy⟩ := hqq.member hm
      obtain ⟨l, rfl, hlm⟩ := hzy.arr_inv
      obtain rfl := hr.governance (h.has.mpr ht) q' hx k hk l hz
      cases hlm
      rfl
    bomRef := fun y hy => by
      obtain ⟨x, hx, hxy⟩ := mem hy
      obtain ⟨s, rfl⟩ := hr.bomRef x hx
      exact ⟨s, hxy.symm.str_inv⟩
    license := fun hl k y hy => by
      obtain ⟨x, hx, -⟩ := mem hy
      exact hr.license (h.has.mpr hl) k x hx }

theorem lossless_reordered [F32Format] (h : Reordered G (.obj o) (.obj p)) (hr : Lossless o) : Lossless p := by
  have mem : ∀ {k y}, (k, y) ∈ p → ∃ x, (k, x) ∈ o ∧ Reordered G x y := fun hy => h.member hy
  have arr : ∀ {k m}, (k, .arr m) ∈ p → ∃ l, (k, .arr l) ∈ o ∧ ∀ y ∈ m, ∃ x ∈ l, Reordered G x y := by
    intro k m hm
    obtain ⟨x, hx, hr⟩ := mem hm
    obtain ⟨l, rfl, hr⟩ := hr.arr_inv
    exact ⟨l, hx, fun y hy => hr.item hy⟩
  exact {
    dropped := fun k hk y hy => by
      obtain ⟨x, hx, -⟩ := mem hy
      exact hr.dropped k hk x hx
    noRef := fun k y hy hk hb => by
      obtain ⟨x, hx, hxy⟩ := mem hy
      exact hr.noRef k x hx hk (hxy.has.mpr hb)
    noRefs := fun k m hm hk y hy hb => by
      obtain ⟨l, hl, hi⟩ := arr hm
      obtain ⟨x, hx, hxy⟩ := hi y hy
      exact hr.noRefs k l hl hk x hx (hxy.has.mpr hb)
    considerations := fun y hy => by
      obtain ⟨x, hx, hxy⟩ := mem hy
      rw [hr.considerations x hx] at hxy
      obtain ⟨q, rfl, hq⟩ := hxy.symm.obj_inv
      cases q with
      | nil => rfl
      | cons m q =>
        obtain ⟨z, hz, -⟩ := hq.symm.member (k := m.1) (y := m.2) (.head _)
        cases hz
    signature := fun q hq => by
      obtain ⟨x, hx, hxy⟩ := mem hq
      obtain ⟨q', rfl, hqq⟩ := hxy.obj_inv
      exact (hr.signature q' hx).reordered hqq
    data := fun m hm q hq => by
      obtain ⟨l, hl, hi⟩ := arr hm
      obtain ⟨x, hx, hxy⟩ := hi _ hq
      obtain ⟨q', rfl, hqq⟩ := hxy.obj_inv
      exact (hr.data l hl q' hx).reordered hqq
    properties := fun k m hm hk q hq => by
      obtain ⟨l, hl, hi⟩ := arr hm
      obtain ⟨x, hx, hxy⟩ := hi _ hq
      obtain ⟨q', rfl, hqq⟩ := hxy.obj_inv
      exact (hr.properties k l hl hk q' hx).reordered hqq
    proofOfConcept := fun q hq => by
      obtain ⟨x, hx, hxy⟩ := mem hq
      obtain ⟨q', rfl, hqq⟩ := hxy.obj_inv
      exact (hr.proofOfConcept q' hx).reordered hqq
    dependsOn := fun hm => by
      obtain ⟨x, hx, hxy⟩ := mem hm
      cases hxy
      exact hr.dependsOn hx
    mode := fun y hy => by
      obtain ⟨x, hx, hxy⟩ := mem hy
      exact hxy.has.mp (hr.mode x hx)
    licensing := fun y hy k hk => by
      obtain ⟨x, hx, hxy⟩ := mem hy
      exact hxy.has.mp (hr.licensing x hx k hk)
    exact := fun k n hn hk => by
      obtain ⟨x, hx, hxy⟩ := mem hn
      rw [hxy.nat_inv] at hx
      exact hr.exact k n hx hk }

/-- A value has nothing that the document does not have, so that it is settled if the document is. -/
theorem Json.Settled.toValue [F32Format] : ∀ {j : Json}, j.Settled → j.toValue.Settled := by
  intro j
  refine Json.byParts (P := fun j => j.Settled → j.toValue.Settled) id (fun _ => id) (fun _ => id) (fun _ => id) id
    (fun _ => id) ?_ ?_ j
  · intro l ih h
    cases h with | arr h =>
    rw [Json.toValue, toValues_map]
    refine .arr fun j hj => ?_
    obtain ⟨i, hi, rfl⟩ := List.mem_map.mp hj
    exact ih i hi (h i hi)
  · intro o ih h
    cases h with | obj h1 h2 =>
    rw [Json.toValue]
    have str : ∀ {x : Json} {s : String}, x.toValue = .str s → x = .str s := by
      intro x s e
      cases x with
      | arr => rw [Json.toValue] at e; cases e
      | obj => rw [Json.toValue] at e; cases e
      | _ => exact e
    refine .obj (fun m hm => ?_) fun m hm => ?_
    · obtain ⟨x, hx, e⟩ := toValue_mem (k := m.1) (y := m.2) hm
      have := h1 _ hx
      rw [e]
      exact ⟨fun e1 e2 => this.type e1 (str e2), fun e1 e2 => this.aggregate e1 (str e2),
        fun e1 s e2 => this.field e1 s (str e2)⟩
    · obtain ⟨x, hx, e⟩ := toValue_mem (k := m.1) (y := m.2) hm
      rw [e]
      exact ih _ hx (h2 _ hx)

end

end Cdx
