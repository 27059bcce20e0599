import Verif.Spec.Ends
import Verif.Lemmas.Xml
import Verif.Model.Format.Data

set_option linter.unusedSectionVars false
set_option linter.unusedSimpArgs false

/-!
# Readers come to an end
-/

namespace Cdx

open Spec

variable {σ α β ρ : Type} {m : Nat}

/-- `Proper` for an arm of a reader loop. -/
def ProperArm (m : Nat) (a : Arm σ) : Prop :=
  ∀ n attrs st evs, evs.length ≤ m → Ends evs (a n attrs st evs)

theorem Proper.mono {r : XElem α} {k : Nat} (h : Proper m r) (hk : k ≤ m) : Proper k r :=
  fun n attrs evs he => h n attrs evs (Nat.le_trans he hk)

theorem ends_cons {e : XEvent} {l : List XEvent} {o : Except XErr (α × List XEvent)}
    (h : Ends l o) : Ends (e :: l) o := by
  cases o with
  | error e => exact h
  | ok p =>
    obtain ⟨used, _, hu⟩ := h
    exact ⟨e :: used, nofun, by rw [hu]; rfl⟩

theorem ends_append {a l : List XEvent} {o : Except XErr (α × List XEvent)}
    (h : Ends l o) : Ends (a ++ l) o := by
  cases o with
  | error e => exact h
  | ok p =>
    obtain ⟨used, hn, hu⟩ := h
    exact ⟨a ++ used, by simp [hn], by rw [hu, List.append_assoc]⟩

theorem ends_bind {evs : List XEvent} {o : Except XErr (α × List XEvent)} (h : Ends evs o)
    {f : α → Except XErr β} (hf : ∀ x e, f x = .error e → e ≠ .stuck ∧ e ≠ .depth) :
    Ends evs (do let (x, l) ← o; let y ← f x; .ok (y, l)) := by
  cases o with
  | error e => exact h
  | ok p =>
    obtain ⟨x, l⟩ := p
    simp only [bind, Except.bind]
    cases hx : f x with
    | error e => exact hf x e hx
    | ok y => exact h

theorem ends_bind_close {evs : List XEvent} {el : XName} {l : List XEvent} (x : α)
    (h : ∃ used, evs = used ++ l) :
    Ends evs (do let ((), l) ← readClose el l; .ok (x, l)) := by
  obtain ⟨used, rfl⟩ := h
  cases l with
  | nil => exact ⟨nofun, nofun⟩
  | cons e l =>
    cases e with
    | stop n =>
      simp only [readClose]
      split
      · exact ⟨used ++ [.stop n], by simp, by simp⟩
      · exact ⟨nofun, nofun⟩
    | _ => exact ⟨nofun, nofun⟩

theorem readSimple_proper : Proper m readSimple := by
  intro el attrs evs _
  cases evs with
  | nil => exact ⟨nofun, nofun⟩
  | cons e l =>
    cases e with
    | stop n => exact ⟨[.stop n], nofun, rfl⟩
    | chars s => exact ends_bind_close s ⟨[.chars s], rfl⟩
    | cdata s => exact ends_bind_close s ⟨[.cdata s], rfl⟩
    | _ => exact ⟨nofun, nofun⟩

theorem readOptional_proper : Proper m readOptional := by
  intro el attrs evs _
  cases evs with
  | nil => exact ⟨nofun, nofun⟩
  | cons e l =>
    cases e with
    | stop n =>
      simp only [readOptional]
      split
      · exact ⟨[.stop n], nofun, rfl⟩
      · exact ⟨nofun, nofun⟩
    | chars s => exact ends_bind_close (some s) ⟨[.chars s], rfl⟩
    | cdata s => exact ends_bind_close (some s) ⟨[.cdata s], rfl⟩
    | _ => exact ⟨nofun, nofun⟩

theorem readInner_proper : Proper m readInner := by
  intro el attrs evs _
  cases evs with
  | nil => exact ⟨nofun, nofun⟩
  | cons e l =>
    cases e with
    | chars s => exact ends_bind_close s ⟨[.chars s], rfl⟩
    | cdata s => exact ends_bind_close s ⟨[.cdata s], rfl⟩
    | _ => exact ⟨nofun, nofun⟩

theorem readText_ends {el : XName} {evs : List XEvent} : Ends evs (readText el evs) := by
  cases evs with
  | nil => exact ⟨nofun, nofun⟩
  | cons e l =>
    cases e with
    | chars s => exact ⟨[.chars s], nofun, rfl⟩
    | cdata s => exact ⟨[.cdata s], nofun, rfl⟩
    | _ => exact ⟨nofun, nofun⟩

theorem readU32_proper : Proper m readU32 := by
  intro el attrs evs _
  simp only [readU32]
  have h := readText_ends (el := el) (evs := evs)
  cases ht : readText el evs with
  | error e => rw [ht] at h; exact h
  | ok p =>
    rw [ht] at h
    obtain ⟨s, l⟩ := p
    obtain ⟨used, _, hu⟩ := h
    simp only [bind, Except.bind]
    generalize parseU32 (trim s) = o
    cases o with
    | none => exact ⟨nofun, nofun⟩
    | some n => exact ends_bind_close n ⟨used, hu⟩

theorem readF32_proper [F32Format] : Proper m readF32 := by
  intro el attrs evs _
  simp only [readF32]
  have h := readText_ends (el := el) (evs := evs)
  cases ht : readText el evs with
  | error e => rw [ht] at h; exact h
  | ok p =>
    rw [ht] at h
    obtain ⟨s, l⟩ := p
    obtain ⟨used, _, hu⟩ := h
    simp only [bind, Except.bind]
    generalize F32Format.parse (trim s) = o
    cases o with
    | none => exact ⟨nofun, nofun⟩
    | some n => exact ends_bind_close n ⟨used, hu⟩

theorem reqAttr_proper {el : XName} {attrs name e} (h : reqAttr el attrs name = .error e) :
    e ≠ .stuck ∧ e ≠ .depth := by
  simp only [reqAttr] at h
  split at h
  · cases h
  · cases h
    exact ⟨nofun, nofun⟩

theorem required_proper {field : String} {el : XName} {x : Option α} {e}
    (h : required field el x = .error e) : e ≠ .stuck ∧ e ≠ .depth := by
  cases x with
  | none =>
    cases h
    exact ⟨nofun, nofun⟩
  | some y => cases h

theorem readRef_proper : Proper m readRef := by
  intro el attrs evs _
  simp only [readRef]
  cases h : reqAttr el attrs "ref" with
  | error e => exact reqAttr_proper h
  | ok r => exact ends_bind_close r ⟨[], rfl⟩

theorem map_proper {r : XElem α} (h : Proper m r) (f : α → β) : Proper m (r.map f) :=
  fun n attrs evs he => ends_bind (h n attrs evs he) (f := fun x => .ok (f x)) (fun _ _ h => nomatch h)

theorem parseBool_proper {el value : String} {e} (h : parseBool el value = .error e) :
    e ≠ .stuck ∧ e ≠ .depth := by
  simp only [parseBool] at h
  split at h
  · cases h
  · split at h
    · cases h
    · cases h
      exact ⟨nofun, nofun⟩

theorem parseF32_proper [F32Format] {el value : String} {e} (h : parseF32 el value = .error e) :
    e ≠ .stuck ∧ e ≠ .depth := by
  simp only [parseF32] at h
  split at h
  · cases h
  · cases h
    exact ⟨nofun, nofun⟩

theorem readBool_proper : Proper m readBool := fun n attrs evs he =>
  ends_bind (readSimple_proper n attrs evs he) fun _ _ h => parseBool_proper h

theorem readScore_proper [F32Format] : Proper m readScore := fun n attrs evs he =>
  ends_bind (readSimple_proper n attrs evs he) fun _ _ h => parseF32_proper h

theorem skipElem_ends : ∀ (l : List XEvent) (stk : List XName),
    match skipElem stk l with
    | .ok l' => ∃ used, l = used ++ l'
    | .error e => e ≠ .stuck ∧ e ≠ .depth
  | [], [] => ⟨[], rfl⟩
  | [], _ :: _ => ⟨nofun, nofun⟩
  | e :: l, [] => ⟨[], rfl⟩
  | e :: l, n :: stk => by
    have next : ∀ stk', (match skipElem stk' l with
        | .ok l' => ∃ used, e :: l = used ++ l'
        | .error e => e ≠ .stuck ∧ e ≠ .depth) := by
      intro stk'
      have := skipElem_ends l stk'
      cases h : skipElem stk' l with
      | ok l' =>
        rw [h] at this
        obtain ⟨used, hu⟩ := this
        exact ⟨e :: used, by rw [hu]; rfl⟩
      | error x =>
        rw [h] at this
        exact this
    cases e with
    | start k a ns => exact next (k :: n :: stk)
    | stop k =>
      simp only [skipElem]
      by_cases hk : k = n
      · rw [if_pos hk]
        exact next stk
      · rw [if_neg hk]
        exact ⟨nofun, nofun⟩
    | endDocument => exact ⟨nofun, nofun⟩
    | _ => exact next (n :: stk)

theorem readLoop_proper {mode : Unknown} {isEnd : XName → Bool} {el : XName}
    {arms : List (String × Arm σ)} (harms : ∀ p ∈ arms, ProperArm m p.2) :
    ∀ (fuel : Nat) (st : σ) (evs : List XEvent), evs.length < fuel → evs.length ≤ m + 1 →
      Ends evs (readLoop mode isEnd el arms fuel st evs)
  | 0, _, _, h, _ => by omega
  | fuel + 1, st, [], _, _ => ⟨nofun, nofun⟩
  | fuel + 1, st, e :: l, hf, hm => by
    simp only [List.length_cons] at hf hm
    have next : ∀ st' (l' a : List XEvent), l = a ++ l' →
        Ends (e :: l) (readLoop mode isEnd el arms fuel st' l') := by
      rintro st' l' a rfl
      simp only [List.length_append] at hf hm
      exact ends_cons (ends_append (readLoop_proper harms fuel st' l' (by omega) (by omega)))
    have stay := next st l [] rfl
    cases e with
    | start n attrs ns =>
      simp only [readLoop]
      cases harm : arms.lookup n.localName with
      | some act =>
        have ha : Ends l (act n attrs st l) :=
          harms _ (mem_of_lookup harm) n attrs st l (by omega)
        simp only
        cases hact : act n attrs st l with
        | error x => rw [hact] at ha; exact ha
        | ok r =>
          rw [hact] at ha
          obtain ⟨used, _, hu⟩ := ha
          simp only
          rw [if_pos (by rw [hu]; simp)]
          exact next _ _ used hu
      | none =>
        simp only
        cases mode with
        | fail => exact ⟨nofun, nofun⟩
        | ignore => exact stay
        | skip =>
          simp only
          have hs := skipElem_ends l [n]
          cases hk : skipElem [n] l with
          | error x => rw [hk] at hs; exact hs
          | ok l' =>
            rw [hk] at hs
            obtain ⟨used, hu⟩ := hs
            simp only
            rw [if_pos (by rw [hu]; simp)]
            exact next _ _ used hu
    | stop n =>
      simp only [readLoop]
      split
      · exact ⟨[.stop n], nofun, rfl⟩
      · split
        · exact stay
        · exact ⟨nofun, nofun⟩
    | _ =>
      simp only [readLoop]
      split
      · exact stay
      · exact ⟨nofun, nofun⟩

theorem arm_proper {r : XElem α} (h : Proper m r) (set : α → σ → σ) : ProperArm m (arm r set) :=
  fun n attrs st evs he =>
    ends_bind (h n attrs evs he) (f := fun x => .ok (set x st)) (fun _ _ h => nomatch h)

theorem armOnce_proper {r : XElem α} (h : Proper m r) (isSet : σ → Bool)
    (set : α → σ → σ) : ProperArm m (armOnce r isSet set) := by
  intro n attrs st evs he
  simp only [armOnce]
  split
  · exact ⟨nofun, nofun⟩
  · exact arm_proper h set n attrs st evs he

theorem parmsNil : ∀ p ∈ ([] : List (String × Arm σ)), ProperArm m p.2 := fun _ h => nomatch h

theorem parmsCons {t : String} {a : Arm σ} {l : List (String × Arm σ)} (h : ProperArm m a)
    (hl : ∀ q ∈ l, ProperArm m q.2) : ∀ q ∈ (t, a) :: l, ProperArm m q.2 := by
  intro q hq
  cases hq with
  | head => exact h
  | tail _ hq => exact hl q hq

theorem parmsAppend {l arms : List (String × Arm σ)} (hl : ∀ q ∈ l, ProperArm m q.2)
    (hm : ∀ q ∈ arms, ProperArm m q.2) : ∀ q ∈ l ++ arms, ProperArm m q.2 := by
  intro q hq
  rcases List.mem_append.mp hq with h | h
  · exact hl q h
  · exact hm q h

theorem parmsSince14 {v : SpecVersion} {l : List (String × Arm σ)}
    (hl : ∀ q ∈ l, ProperArm m q.2) : ∀ q ∈ since14 v l [], ProperArm m q.2 := by
  cases v
  · exact parmsNil
  · exact hl
  · exact hl

theorem parmsSince15 {v : SpecVersion} {l : List (String × Arm σ)}
    (hl : ∀ q ∈ l, ProperArm m q.2) : ∀ q ∈ since15 v l [], ProperArm m q.2 := by
  cases v
  · exact parmsNil
  · exact parmsNil
  · exact hl

/-- There is no error, or one that the program has. -/
structure Fine (o : Except XErr α) : Prop where
  out : ∀ e, o = .error e → e ≠ .stuck ∧ e ≠ .depth

theorem fine_ok (x : α) : Fine (.ok x) := ⟨nofun⟩

theorem fine_pure (x : α) : Fine (pure x) := ⟨nofun⟩

theorem fine_bind {o : Except XErr α} {f : α → Except XErr β} (h : Fine o) (hf : ∀ x, Fine (f x)) :
    Fine (o >>= f) := by
  refine ⟨fun e he => ?_⟩
  cases o with
  | error e' => cases he; exact h.out _ rfl
  | ok x => exact (hf x).out e he

theorem fine_unexpected {s : String} : Fine (α := α) (.error (.unexpected s)) := ⟨by
  rintro e ⟨⟩
  exact ⟨nofun, nofun⟩⟩

theorem fine_missing {f s : String} : Fine (α := α) (.error (.missing f s)) := ⟨by
  rintro e ⟨⟩
  exact ⟨nofun, nofun⟩⟩

theorem fine_invalid {a b c : String} : Fine (α := α) (.error (.invalid a b c)) := ⟨by
  rintro e ⟨⟩
  exact ⟨nofun, nofun⟩⟩

theorem fine_required {field : String} {el : XName} {x : Option α} : Fine (required field el x) :=
  ⟨fun _ => required_proper⟩

theorem fine_reqAttr {el : XName} {attrs name} : Fine (reqAttr el attrs name) := ⟨fun _ => reqAttr_proper⟩

theorem fine_parseBool {el value : String} : Fine (parseBool el value) := ⟨fun _ => parseBool_proper⟩

theorem fine_parseF32 [F32Format] {el value : String} : Fine (parseF32 el value) := ⟨fun _ => parseF32_proper⟩

theorem fine_parseU32 {el value : String} : Fine (parseU32Attr el value) := by
  simp only [parseU32Attr]
  split
  · exact fine_ok _
  · exact fine_invalid

theorem fine_optParse {f : String → Except XErr α} {o : Option String} (h : ∀ s, Fine (f s)) :
    Fine (optParse f o) := by
  cases o with
  | none => exact fine_ok _
  | some s => exact fine_bind (h s) fun x => fine_ok _

theorem fine_map {o : Except XErr α} {f : α → β} (h : Fine o) : Fine (o.map f) := by
  refine ⟨fun e he => ?_⟩
  cases o with
  | error e' => cases he; exact h.out _ rfl
  | ok x => cases he

theorem fine_since14 {v : SpecVersion} {a b : Except XErr α} (ha : Fine a) (hb : Fine b) :
    Fine (since14 v a b) := by
  cases v with
  | v1_3 => exact hb
  | v1_4 => exact ha
  | v1_5 => exact ha

theorem fine_since15 {v : SpecVersion} {a b : Except XErr α} (ha : Fine a) (hb : Fine b) :
    Fine (since15 v a b) := by
  cases v with
  | v1_3 => exact hb
  | v1_4 => exact hb
  | v1_5 => exact ha

/-- Proves that the errors of the beginning or the end of a reader are errors of the program. -/
macro "fine" : tactic => `(tactic| (intros; (try dsimp only); repeat' first
  | exact fine_ok _ | exact fine_pure _ | exact fine_required | exact fine_reqAttr | exact fine_parseBool
  | exact fine_parseF32 | exact fine_unexpected | exact fine_missing | exact fine_invalid | exact fine_parseU32
  | with_reducible refine fine_bind ?_ fun _ => ?_
  | refine fine_optParse fun _ => ?_ | with_reducible refine fine_map ?_
  | with_reducible refine fine_since14 ?_ ?_
  | with_reducible refine fine_since15 ?_ ?_ | split))

theorem bind_proper {r : XElem α} (h : Proper m r)
    (f : XName → List (String × String) → α → Except XErr β)
    (hf : ∀ el attrs x, Fine (f el attrs x) := by fine) :
    Proper m (fun el attrs evs => do
      let (x, l) ← r el attrs evs
      let y ← f el attrs x
      .ok (y, l)) :=
  fun n attrs evs he => ends_bind (h n attrs evs he) fun x => (hf n attrs x).out

theorem readWith_proper {pre : XName → List (String × String) → Except XErr ρ} {r : XElem α}
    {fin : ρ → α → β} (h : Proper m r)
    (hp : ∀ el attrs, Fine (pre el attrs) := by fine) : Proper m (readWith pre r fin) := by
  intro el attrs evs he
  simp only [readWith]
  cases hx : pre el attrs with
  | error e => exact (hp _ _).out _ hx
  | ok p => exact ends_bind (h el attrs evs he) (f := fun x => .ok (fin p x)) (fun _ _ h => nomatch h)

theorem readStruct_above {mode : Unknown}
    {pre : XName → List (String × String) → Except XErr ρ}
    {init : σ} {arms : List (String × Arm σ)} {fin : XName → ρ → σ → Except XErr α}
    (harms : ∀ p ∈ arms, ProperArm m p.2) (hp : ∀ el attrs, Fine (pre el attrs) := by fine)
    (hf : ∀ el p st, Fine (fin el p st) := by fine)
    : Proper (m + 1) (readStruct mode pre init arms fin) := by
  intro el attrs evs he
  simp only [readStruct]
  cases hx : pre el attrs with
  | error e => exact (hp _ _).out _ hx
  | ok p => exact ends_bind (readLoop_proper harms _ init evs (Nat.lt_succ_self _) he) fun st => (hf el p st).out

theorem readStruct_nil {mode : Unknown}
    {pre : XName → List (String × String) → Except XErr ρ}
    {init : σ} {arms : List (String × Arm σ)} {fin : XName → ρ → σ → Except XErr α}
    (hp : ∀ el attrs, Fine (pre el attrs) := by fine) : Proper 0 (readStruct mode pre init arms fin) := by
  intro el attrs evs he
  obtain rfl : evs = [] := List.eq_nil_of_length_eq_zero (Nat.le_zero.mp he)
  simp only [readStruct]
  cases hx : pre el attrs with
  | error e => exact (hp _ _).out _ hx
  | ok p => exact ⟨nofun, nofun⟩

theorem readStruct_proper {mode : Unknown}
    {pre : XName → List (String × String) → Except XErr ρ}
    {init : σ} {arms : List (String × Arm σ)} {fin : XName → ρ → σ → Except XErr α}
    (harms : ∀ p ∈ arms, ProperArm m p.2) (hp : ∀ el attrs, Fine (pre el attrs) := by fine)
    (hf : ∀ el p st, Fine (fin el p st) := by fine)
    : Proper m (readStruct mode pre init arms fin) :=
  (readStruct_above harms hp hf).mono (Nat.le_succ _)

theorem readListWith_proper {mode : Unknown} {inner : String} {r : XElem α}
    (h : Proper m r) : Proper m (readListWith mode inner r) := fun _ _ evs he =>
  readLoop_proper (parmsCons (t := inner) (arm_proper h _) parmsNil) _ [] evs (Nat.lt_succ_self _)
    (Nat.le_succ_of_le he)

theorem readList_proper {inner : String} {r : XElem α} (h : Proper m r) :
    Proper m (readList inner r) := readListWith_proper h

theorem readListLax_proper {inner : String} {r : XElem α} (h : Proper m r) :
    Proper m (readListLax inner r) := readListWith_proper h

end Cdx
