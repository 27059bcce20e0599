import Verif.Spec.XmlAttributes
import Verif.Lemmas.Xml

set_option linter.unusedSectionVars false
set_option linter.unusedSimpArgs false
set_option linter.unusedVariables false

/-!
# Reading documents that differ only in attributes and prefixes

A reader is `Blind` if on corresponding events it has the same outcome and leaves corresponding events.
-/

namespace Cdx.Attributes

open Spec

variable {σ α β ρ : Type} {R : XName → XName → Prop}

/-- The values of the attributes `A` agree. -/
def Agree (A : List String) (a b : List (String × String)) : Prop := ∀ k ∈ A, a.lookup k = b.lookup k

theorem Agree.mono {A B : List String} {a b : List (String × String)} (h : Agree B a b)
    (hs : ∀ k ∈ A, k ∈ B) : Agree A a b := fun k hk => h k (hs k hk)

/-- The same outcome. -/
inductive SameOut (R : XName → XName → Prop) :
    Except XErr (α × List XEvent) → Except XErr (α × List XEvent) → Prop
  | error {e : XErr} : SameOut R (.error e) (.error e)
  | ok {x : α} {l l' : List XEvent} : SameEvents R l l' → SameOut R (.ok (x, l)) (.ok (x, l'))

theorem SameOut.bind {a b : Except XErr (α × List XEvent)}
    {f g : α × List XEvent → Except XErr (β × List XEvent)} (h : SameOut R a b)
    (hf : ∀ x l l', SameEvents R l l' → SameOut R (f (x, l)) (g (x, l'))) :
    SameOut R (a >>= f) (b >>= g) := by
  cases h with
  | error => exact .error
  | ok hl => exact hf _ _ _ hl

theorem sameOut_value {x : Except XErr α} {f g : α → Except XErr (β × List XEvent)}
    (hf : ∀ y, SameOut R (f y) (g y)) : SameOut R (x >>= f) (x >>= g) := by
  cases x with
  | error => exact .error
  | ok y => exact hf y

theorem same_length {l l' : List XEvent} (h : SameEvents R l l') : l.length = l'.length := by
  induction h with
  | nil => rfl
  | cons _ _ ih => simp [ih]

/-- The reader looks only at the attributes `A` of its element. -/
class Blind (R : XName → XName → Prop) (A : outParam (List String)) (r : XElem α) : Prop where
  out : ∀ {el el' : XName} {a a' : List (String × String)} {l l' : List XEvent},
    R el el' → Agree A a a' → SameEvents R l l' → SameOut R (r el a l) (r el' a' l')

/-- The arm looks only at the attributes `A` of the element. -/
def BlindArm (R : XName → XName → Prop) (A : List String) (act : Arm σ) : Prop :=
  ∀ (el el' : XName) (a a' : List (String × String)) (st : σ) (l l' : List XEvent),
    R el el' → Agree A a a' → SameEvents R l l' → SameOut R (act el a st l) (act el' a' st l')

/-- Every arm looks only at attributes of the format. -/
def BlindArms (R : XName → XName → Prop) (arms : List (String × Arm σ)) : Prop :=
  ∀ p ∈ arms, BlindArm R (attributesOf p.1) p.2

theorem arms_nil : BlindArms R ([] : List (String × Arm σ)) := fun p h => absurd h (by simp)

theorem arms_cons {tag : String} {act : Arm σ} {rest : List (String × Arm σ)}
    (h : BlindArm R (attributesOf tag) act) (hr : BlindArms R rest) : BlindArms R ((tag, act) :: rest) := by
  intro p hp
  rcases List.mem_cons.mp hp with rfl | hp
  · exact h
  · exact hr p hp

theorem arms_append {a b : List (String × Arm σ)} (ha : BlindArms R a) (hb : BlindArms R b) :
    BlindArms R (a ++ b) := by
  intro p hp
  rcases List.mem_append.mp hp with hp | hp
  · exact ha p hp
  · exact hb p hp

theorem arms_since14 {v : SpecVersion} {a b : List (String × Arm σ)} (ha : BlindArms R a)
    (hb : BlindArms R b) : BlindArms R (since14 v a b) := by
  cases v <;> assumption

theorem arms_since15 {v : SpecVersion} {a b : List (String × Arm σ)} (ha : BlindArms R a)
    (hb : BlindArms R b) : BlindArms R (since15 v a b) := by
  cases v <;> assumption

theorem arm_blind {A B : List String} {r : XElem α} {set : α → σ → σ} (h : Blind R A r)
    (hs : ∀ k ∈ A, k ∈ B) : BlindArm R B (arm r set) := by
  intro el el' a a' st l l' hn ha hl
  exact (h.out hn (ha.mono hs) hl).bind fun x l l' hl => .ok hl

theorem armOnce_blind [Correspondence R] {A B : List String} {r : XElem α} {set : α → σ → σ}
    {isSet : σ → Bool} (h : Blind R A r) (hs : ∀ k ∈ A, k ∈ B) : BlindArm R B (armOnce r isSet set) := by
  intro el el' a a' st l l' hn ha hl
  unfold armOnce
  split
  · rw [Correspondence.localName hn]; exact .error
  · exact arm_blind h hs _ _ _ _ _ _ _ hn ha hl

theorem mem_of_lookup {l : List (String × β)} {k : String} {x : β} (h : l.lookup k = some x) :
    (k, x) ∈ l := by
  induction l with
  | nil => simp at h
  | cons p l ih =>
    obtain ⟨k', y⟩ := p
    rw [List.lookup_cons] at h
    cases hk : k == k' with
    | true =>
      simp only [hk] at h
      obtain rfl := Option.some.inj h
      rw [eq_of_beq hk]
      exact .head _
    | false =>
      simp only [hk] at h
      exact .tail _ (ih h)

/-! ## Plain readers -/

section

variable [Correspondence R]

theorem close_blind {el el' : XName} {l l' : List XEvent} (hn : R el el') (h : SameEvents R l l') :
    SameOut R (readClose el l) (readClose el' l') := by
  cases h with
  | nil => exact .error
  | cons he hl =>
    cases he with
    | @stop n n' hs =>
      unfold readClose
      dsimp only
      by_cases hc : n = el
      · rw [if_pos hc, if_pos ((Correspondence.same hs hn).mp hc)]; exact .ok hl
      · rw [if_neg hc, if_neg fun h' => hc ((Correspondence.same hs hn).mpr h'), Correspondence.localName hn]
        exact .error
    | _ => unfold readClose; simp only [Correspondence.localName hn]; exact .error

theorem text_blind {el el' : XName} {l l' : List XEvent} (hn : R el el') (h : SameEvents R l l') :
    SameOut R (readText el l) (readText el' l') := by
  cases h with
  | nil => exact .error
  | cons he hl =>
    cases he with
    | chars => exact .ok hl
    | cdata => exact .ok hl
    | _ => unfold readText; simp only [Correspondence.localName hn]; exact .error

instance simple_blind : Blind R [] readSimple where
  out hn ha h := by
    cases h with
    | nil => exact .error
    | cons he hl =>
      cases he with
      | stop hs => exact .ok hl
      | chars => exact (close_blind hn hl).bind fun _ _ _ h => .ok h
      | cdata => exact (close_blind hn hl).bind fun _ _ _ h => .ok h
      | _ => unfold readSimple; simp only [Correspondence.localName hn]; exact .error

instance inner_blind : Blind R [] readInner where
  out hn ha h := (text_blind hn h).bind fun _ _ _ h => (close_blind hn h).bind fun _ _ _ h => .ok h

instance optional_blind : Blind R [] readOptional where
  out := by
    intro el el' a a' l l' hn ha h
    cases h with
    | nil => exact .error
    | cons he hl =>
      cases he with
      | @stop n n' hs =>
        unfold readOptional
        dsimp only
        by_cases hc : n.display = el.display
        · rw [if_pos hc, if_pos ((Correspondence.display hs hn).mp hc)]; exact .ok hl
        · rw [if_neg hc, if_neg fun h' => hc ((Correspondence.display hs hn).mpr h'),
            Correspondence.localName hn]
          exact .error
      | chars => exact (close_blind hn hl).bind fun _ _ _ h => .ok h
      | cdata => exact (close_blind hn hl).bind fun _ _ _ h => .ok h
      | _ => unfold readOptional; simp only [Correspondence.localName hn]; exact .error

instance u32_blind : Blind R [] readU32 where
  out hn ha h := (text_blind hn h).bind fun s _ _ h => by
    dsimp only
    cases parseU32 (trim s) with
    | none => simp only [Correspondence.localName hn]; exact .error
    | some n => exact (close_blind hn h).bind fun _ _ _ h => .ok h

instance f32_blind [F32Format] : Blind R [] readF32 where
  out hn ha h := (text_blind hn h).bind fun s _ _ h => by
    dsimp only
    cases F32Format.parse (trim s) with
    | none => simp only [Correspondence.localName hn]; exact .error
    | some n => exact (close_blind hn h).bind fun _ _ _ h => .ok h

instance score_blind [F32Format] : Blind R [] readScore where
  out hn ha h := (simple_blind.out hn ha h).bind fun s _ _ h => sameOut_value fun _ => .ok h

theorem reqAttr_blind {A : List String} {el el' : XName} {a a' : List (String × String)} {k : String}
    (hn : el.localName = el'.localName) (h : Agree A a a') (hk : k ∈ A) :
    reqAttr el a k = reqAttr el' a' k := by
  unfold reqAttr
  rw [h k hk, hn]

instance ref_blind : Blind R ["ref"] readRef where
  out hn ha h := by
    unfold readRef
    rw [reqAttr_blind (Correspondence.localName hn) ha (.head _)]
    exact sameOut_value fun _ => (close_blind hn h).bind fun _ _ _ h => .ok h

instance bool_blind : Blind R [] readBool where
  out hn ha h := (simple_blind.out hn ha h).bind fun s _ _ h => by
    rw [Correspondence.localName hn]
    exact sameOut_value fun _ => .ok h

instance map_blind {A : List String} {f : α → β} {r : XElem α} [h : Blind R A r] :
    Blind R A (r.map f) where
  out hn ha hl := (h.out hn ha hl).bind fun _ _ _ h => .ok h

theorem with_blind {A B : List String} {pre : XName → List (String × String) → Except XErr ρ}
    {r : XElem α} {fin : ρ → α → β} (h : Blind R B r)
    (hp : ∀ {el el' : XName} {a a'}, el.localName = el'.localName → Agree A a a' → pre el a = pre el' a')
    (hs : ∀ k ∈ B, k ∈ A) :
    Blind R A (readWith pre r fin) where
  out hn ha hl := by
    unfold readWith
    rw [hp (Correspondence.localName hn) ha]
    exact sameOut_value fun _ => (h.out hn (ha.mono hs) hl).bind fun _ _ _ h => .ok h

/-! ## Loops -/

/-- The same events are left, or the same error. -/
inductive SameRest (R : XName → XName → Prop) : Except XErr (List XEvent) → Except XErr (List XEvent) → Prop
  | error {e : XErr} : SameRest R (.error e) (.error e)
  | ok {l l' : List XEvent} : SameEvents R l l' → SameRest R (.ok l) (.ok l')

/-- The names of the open elements correspond. -/
inductive SameNames (R : XName → XName → Prop) : List XName → List XName → Prop
  | nil : SameNames R [] []
  | cons {n n' : XName} {l l' : List XName} : R n n' → SameNames R l l' → SameNames R (n :: l) (n' :: l')

theorem skip_blind {l l' : List XEvent} (h : SameEvents R l l') :
    ∀ {stk stk' : List XName}, SameNames R stk stk' → SameRest R (skipElem stk l) (skipElem stk' l') := by
  induction h with
  | nil =>
    intro stk stk' hs
    cases hs with
    | nil => simp only [skipElem]; exact .ok .nil
    | cons _ _ => simp only [skipElem]; exact .error
  | cons he hl ih =>
    intro stk stk' hs
    cases hs with
    | nil => simp only [skipElem]; exact .ok (.cons he hl)
    | @cons m m' _ _ hn hs =>
      cases he with
      | start h1 h2 => simp only [skipElem]; exact ih (.cons h1 (.cons hn hs))
      | @stop n n' h1 =>
        simp only [skipElem]
        by_cases hc : n = m
        · rw [if_pos hc, if_pos ((Correspondence.same h1 hn).mp hc)]; exact ih hs
        · rw [if_neg hc, if_neg fun h' => hc ((Correspondence.same h1 hn).mpr h'), Correspondence.localName hn]
          exact .error
      | endDocument => simp only [skipElem, Correspondence.localName hn]; exact .error
      | _ => simp only [skipElem]; exact ih (.cons hn hs)

theorem loop_blind {mode : Unknown} {isEnd isEnd' : XName → Bool} {el el' : XName}
    {arms : List (String × Arm σ)} (hn : R el el') (hend : ∀ {n n'}, R n n' → isEnd n = isEnd' n')
    (ha : BlindArms R arms) : ∀ (fuel : Nat) (st : σ) {l l' : List XEvent}, SameEvents R l l' →
      SameOut R (readLoop mode isEnd el arms fuel st l) (readLoop mode isEnd' el' arms fuel st l')
  | 0, st, l, l', h => by simp only [readLoop]; exact .error
  | fuel + 1, st, l, l', h => by
    have ih := fun st {l l'} (h : SameEvents R l l') =>
      loop_blind (mode := mode) hn hend ha fuel st h
    cases h with
    | nil => simp only [readLoop]; exact .error
    | cons he hl =>
      cases he with
      | @start n n' a a' ns h1 h2 =>
        simp only [readLoop]
        rw [← Correspondence.localName h1, ← Correspondence.localName hn]
        cases hk : arms.lookup n.localName with
        | some act =>
          dsimp only
          have := ha _ (mem_of_lookup hk) _ _ _ _ st _ _ h1 h2 hl
          revert this
          dsimp only
          generalize act n a st _ = x
          generalize act n' a' st _ = y
          intro this
          cases this with
          | error => exact .error
          | ok hr =>
            dsimp only
            rw [same_length hl, same_length hr]
            split
            · exact ih _ hr
            · exact .error
        | none =>
          cases mode with
          | fail => exact .error
          | ignore => exact ih _ hl
          | skip =>
            dsimp only
            have := skip_blind hl (.cons h1 .nil)
            revert this
            generalize skipElem [n] _ = x
            generalize skipElem [n'] _ = y
            intro this
            cases this with
            | error => exact .error
            | ok hr =>
              dsimp only
              rw [same_length hl, same_length hr]
              split
              · exact ih _ hr
              · exact .error
      | stop h1 =>
        simp only [readLoop]
        rw [hend h1, Correspondence.localName hn]
        split
        · exact .ok hl
        · split
          · exact ih _ hl
          · exact .error
      | _ =>
        simp only [readLoop]
        rw [Correspondence.localName hn]
        split
        · exact ih _ hl
        · exact .error

theorem fields_blind {mode : Unknown} {el el' : XName} {arms : List (String × Arm σ)} (hn : R el el')
    (ha : BlindArms R arms) (st : σ) {l l' : List XEvent} (h : SameEvents R l l') :
    SameOut R (readFields mode el arms st l) (readFields mode el' arms st l') := by
  unfold readFields
  rw [same_length h]
  exact loop_blind hn (fun h1 => by simp only [Correspondence.same h1 hn]) ha _ _ h

theorem struct_blind {A : List String} {mode : Unknown}
    {pre : XName → List (String × String) → Except XErr ρ} {init : σ} {arms : List (String × Arm σ)}
    {fin : XName → ρ → σ → Except XErr α}
    (hp : ∀ {el el' : XName} {a a'}, el.localName = el'.localName → Agree A a a' → pre el a = pre el' a')
    (ha : BlindArms R arms)
    (hf : ∀ {el el' : XName} {p st}, el.localName = el'.localName → fin el p st = fin el' p st) :
    Blind R A (readStruct mode pre init arms fin) where
  out hn h hl := by
    unfold readStruct
    rw [hp (Correspondence.localName hn) h]
    refine sameOut_value fun p => (fields_blind hn ha _ hl).bind fun st l l' hl => ?_
    dsimp only
    rw [hf (Correspondence.localName hn)]
    exact sameOut_value fun _ => .ok hl

theorem list_blind {A : List String} {mode : Unknown} {inner : String} {r : XElem α} (h : Blind R A r)
    (hs : ∀ k ∈ A, k ∈ attributesOf inner) : Blind R [] (readListWith mode inner r) where
  out hn _ hl := fields_blind hn (arms_cons (arm_blind h hs) arms_nil) _ hl

theorem fail_blind {A : List String} {inner : String} {r : XElem α} (h : Blind R A r)
    (hs : ∀ k ∈ A, k ∈ attributesOf inner) : Blind R [] (readList inner r) := list_blind h hs

theorem lax_blind {A : List String} {inner : String} {r : XElem α} (h : Blind R A r)
    (hs : ∀ k ∈ A, k ∈ attributesOf inner) : Blind R [] (readListLax inner r) := list_blind h hs

theorem weaken {A B : List String} {r : XElem α} (h : Blind R A r) (hs : ∀ k ∈ A, k ∈ B) : Blind R B r where
  out hn ha hl := h.out hn (ha.mono hs) hl

end

theorem required_same {f : String} {el el' : XName} {o : Option α} (h : el.localName = el'.localName) :
    required f el o = required f el' o := by
  cases o with
  | none => simp only [required, h]
  | some => rfl

/-- What is read of the attributes is the same. -/
macro "same_pre" : tactic =>
  `(tactic| (intro el el' a a' hn h
             first
             | rfl
             | (simp only [Agree, List.mem_cons, List.not_mem_nil, or_false, forall_eq_or_imp, forall_eq] at h
                simp only [reqAttr, optAttr, hn, h])))

/-- What is made of the variables is the same. -/
macro "same_fin" : tactic =>
  `(tactic| (intro el el' p st hn; first | rfl | (simp only [required, hn]) | (simp only [required]; rw [hn])))

syntax "blind_reader" : tactic
syntax "blind_arms" : tactic

macro_rules
  | `(tactic| blind_reader) => `(tactic|
      first
      | with_reducible infer_instance
      | assumption
      | ((with_reducible apply fail_blind)
         · blind_reader
         · decide +kernel)
      | ((with_reducible apply lax_blind)
         · blind_reader
         · decide +kernel)
      | ((with_reducible apply list_blind)
         · blind_reader
         · decide +kernel))

macro_rules
  | `(tactic| blind_arms) => `(tactic|
      first
      | with_reducible exact arms_nil
      | ((with_reducible refine arms_cons ?_ ?_)
         · (with_reducible apply arm_blind)
           · blind_reader
           · decide +kernel
         · blind_arms)
      | ((with_reducible refine arms_cons ?_ ?_)
         · (with_reducible apply armOnce_blind)
           · blind_reader
           · decide +kernel
         · blind_arms)
      | ((with_reducible refine arms_append ?_ ?_) <;> blind_arms)
      | ((with_reducible refine arms_since14 ?_ ?_) <;> blind_arms)
      | ((with_reducible refine arms_since15 ?_ ?_) <;> blind_arms))

end Cdx.Attributes
