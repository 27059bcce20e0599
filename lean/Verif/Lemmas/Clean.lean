import Verif.Spec.XmlKept
import Verif.Lemmas.Settled
import Verif.Lemmas.Lossless

set_option linter.unusedSectionVars false
set_option linter.unusedSimpArgs false

/-!
# What readers of XML return when the events are clean

`Gets r Q`: whatever `r` returns satisfies `Q`, and the events it leaves are clean again. The
lemmas follow the structure of the readers.
-/

namespace Cdx

variable {σ α β ρ : Type}

/-- What a reader returns from clean events satisfies `Q`, and it leaves clean events. -/
def Gets (r : XElem α) (Q : α → Prop) : Prop :=
  ∀ el attrs evs x rest, CleanTexts evs → r el attrs evs = .ok (x, rest) → Q x ∧ CleanTexts rest

/-- An arm keeps a condition on the local variables, and leaves clean events. -/
def ArmGets (P : σ → Prop) (a : Arm σ) : Prop :=
  ∀ n attrs st evs st' rest, P st → CleanTexts evs → a n attrs st evs = .ok (st', rest) →
    P st' ∧ CleanTexts rest

/-- All arms keep a condition. -/
def ArmsGet (P : σ → Prop) (arms : List (String × Arm σ)) : Prop := ∀ p ∈ arms, ArmGets P p.2

/-! ## Computations that succeed -/

theorem xbind {m : Except XErr α} {f : α → Except XErr β} {x : β} (h : (m >>= f) = .ok x) :
    ∃ a, m = .ok a ∧ f a = .ok x := by
  cases m with
  | error e => cases h
  | ok a => exact ⟨a, rfl, h⟩

theorem xmap {m : Except XErr α} {f : α → β} {x : β} (h : m.map f = .ok x) :
    ∃ a, m = .ok a ∧ f a = x := by
  cases m with
  | error e => cases h
  | ok a => cases h; exact ⟨a, rfl, rfl⟩

theorem required_eq {field : String} {el : XName} {o : Option α} {x : α}
    (h : required field el o = .ok x) : o = some x := by
  cases o with
  | none => cases h
  | some y => cases h; rfl

/-! ## Clean events -/

theorem CleanTexts.head {e : XEvent} {l : List XEvent} (h : CleanTexts (e :: l)) : e.Clean := h e (.head _)

theorem CleanTexts.tail {e : XEvent} {l : List XEvent} (h : CleanTexts (e :: l)) : CleanTexts l :=
  fun x hx => h x (.tail _ hx)

theorem trimmed_nil : Trimmed "" := rfl

theorem readClose_gets {el : XName} {evs rest : List XEvent} {u : Unit} (hc : CleanTexts evs)
    (h : readClose el evs = .ok (u, rest)) : CleanTexts rest := by
  unfold readClose at h
  split at h
  · split at h
    · cases h; exact hc.tail
    · cases h
  · cases h
  · cases h

theorem readText_gets {el : XName} {evs rest : List XEvent} {s : String} (hc : CleanTexts evs)
    (h : readText el evs = .ok (s, rest)) : (Trimmed s ∧ s ≠ "") ∧ CleanTexts rest := by
  unfold readText at h
  split at h
  · cases h; exact ⟨hc.head, hc.tail⟩
  · cases h; exact ⟨hc.head, hc.tail⟩
  · cases h
  · cases h

theorem readSimple_gets : Gets readSimple Trimmed := by
  intro el attrs evs x rest hc h
  unfold readSimple at h
  split at h
  · cases h; exact ⟨trimmed_nil, hc.tail⟩
  · obtain ⟨a, h1, h⟩ := xbind h
    cases h; exact ⟨hc.head.1, readClose_gets hc.tail h1⟩
  · obtain ⟨a, h1, h⟩ := xbind h
    cases h; exact ⟨hc.head.1, readClose_gets hc.tail h1⟩
  · cases h
  · cases h

theorem readInner_gets : Gets readInner fun s => Trimmed s ∧ s ≠ "" := by
  intro el attrs evs x rest hc h
  unfold readInner at h
  obtain ⟨⟨s, l⟩, h1, h⟩ := xbind h
  obtain ⟨⟨_, l'⟩, h2, h⟩ := xbind h
  have g := readText_gets hc h1
  cases h
  exact ⟨g.1, readClose_gets g.2 h2⟩

theorem readOptional_gets : Gets readOptional fun o => ∀ s, o = some s → Trimmed s ∧ s ≠ "" := by
  intro el attrs evs x rest hc h
  unfold readOptional at h
  split at h
  · obtain ⟨a, h1, h⟩ := xbind h
    cases h
    exact ⟨fun s e => by cases e; exact hc.head, readClose_gets hc.tail h1⟩
  · obtain ⟨a, h1, h⟩ := xbind h
    cases h
    exact ⟨fun s e => by cases e; exact hc.head, readClose_gets hc.tail h1⟩
  · split at h
    · cases h; exact ⟨nofun, hc.tail⟩
    · cases h
  · cases h
  · cases h

theorem parseU32_lt {s : String} {n : Nat} (h : parseU32 s = some n) : n < 2 ^ 32 := by
  unfold parseU32 at h
  dsimp only at h
  generalize (if s.toList.head? = some '+' then s.toList.tail else s.toList) = ds at h
  split at h
  · cases h
  · split at h
    · rename_i g; cases h; exact g
    · cases h

theorem readU32_gets : Gets readU32 fun n => n < 2 ^ 32 := by
  intro el attrs evs x rest hc h
  unfold readU32 at h
  obtain ⟨⟨s, l⟩, h1, h⟩ := xbind h
  have g := readText_gets hc h1
  dsimp only at h
  split at h
  · rename_i n hn
    obtain ⟨⟨_, l'⟩, h2, h⟩ := xbind h
    cases h
    exact ⟨parseU32_lt hn, readClose_gets g.2 h2⟩
  · cases h

theorem readF32_gets [F32Format] : Gets readF32 fun _ => True := by
  intro el attrs evs x rest hc h
  unfold readF32 at h
  obtain ⟨⟨s, l⟩, h1, h⟩ := xbind h
  have g := readText_gets hc h1
  dsimp only at h
  split at h
  · obtain ⟨⟨_, l'⟩, h2, h⟩ := xbind h
    cases h
    exact ⟨trivial, readClose_gets g.2 h2⟩
  · cases h

theorem readScore_gets [F32Format] : Gets readScore fun _ => True := by
  intro el attrs evs x rest hc h
  unfold readScore at h
  obtain ⟨⟨s, l⟩, h1, h⟩ := xbind h
  obtain ⟨n, _, h⟩ := xbind h
  cases h
  exact ⟨trivial, (readSimple_gets _ _ _ _ _ hc h1).2⟩

theorem readBool_gets : Gets readBool fun _ => True := by
  intro el attrs evs x rest hc h
  unfold readBool at h
  obtain ⟨⟨s, l⟩, h1, h⟩ := xbind h
  obtain ⟨n, _, h⟩ := xbind h
  cases h
  exact ⟨trivial, (readSimple_gets _ _ _ _ _ hc h1).2⟩

theorem readRef_gets : Gets readRef fun _ => True := by
  intro el attrs evs x rest hc h
  unfold readRef at h
  obtain ⟨r, _, h⟩ := xbind h
  obtain ⟨⟨_, l⟩, h1, h⟩ := xbind h
  cases h
  exact ⟨trivial, readClose_gets hc h1⟩

theorem skipElem_gets : ∀ {evs stk rest}, CleanTexts evs → skipElem stk evs = .ok rest → CleanTexts rest
  | evs, [], rest, hc, h => by
    have : skipElem [] evs = .ok evs := by cases evs <;> rfl
    rw [this] at h
    cases h; exact hc
  | [], _ :: _, _, _, h => by cases h
  | .start n a ns :: l, e :: stk, _, hc, h => skipElem_gets hc.tail (by simpa only [skipElem] using h)
  | .stop n :: l, e :: stk, _, hc, h => by
    simp only [skipElem] at h
    split at h
    · exact skipElem_gets hc.tail h
    · cases h
  | .endDocument :: l, e :: stk, _, hc, h => by cases h
  | .startDocument :: l, e :: stk, _, hc, h => skipElem_gets hc.tail (by simpa only [skipElem] using h)
  | .chars _ :: l, e :: stk, _, hc, h => skipElem_gets hc.tail (by simpa only [skipElem] using h)
  | .cdata _ :: l, e :: stk, _, hc, h => skipElem_gets hc.tail (by simpa only [skipElem] using h)
  | .other :: l, e :: stk, _, hc, h => skipElem_gets hc.tail (by simpa only [skipElem] using h)

/-! ## Loops and structures -/

theorem lookup_mem' {l : List (String × β)} {k : String} {b : β} (h : l.lookup k = some b) :
    ∃ p ∈ l, p.2 = b := by
  induction l with
  | nil => cases h
  | cons p l ih =>
    obtain ⟨k', b'⟩ := p
    rw [List.lookup_cons] at h
    split at h
    · cases h; exact ⟨_, .head _, rfl⟩
    · obtain ⟨q, hq, e⟩ := ih h
      exact ⟨q, .tail _ hq, e⟩

theorem readLoop_gets {P : σ → Prop} {mode : Unknown} {isEnd : XName → Bool} {el : XName}
    {arms : List (String × Arm σ)} (ha : ArmsGet P arms) :
    ∀ {fuel st evs st' rest}, P st → CleanTexts evs →
      readLoop mode isEnd el arms fuel st evs = .ok (st', rest) → P st' ∧ CleanTexts rest
  | 0, _, _, _, _, _, _, h => by cases h
  | fuel + 1, st, [], _, _, _, _, h => by cases h
  | fuel + 1, st, .start n attrs ns :: l, st', rest, hs, hc, h => by
    simp only [readLoop] at h
    split at h
    · rename_i act hact
      split at h
      · rename_i s2 l2 h2
        split at h
        · obtain ⟨p, hp, rfl⟩ := lookup_mem' hact
          obtain ⟨g1, g2⟩ := ha p hp _ _ _ _ _ _ hs hc.tail h2
          exact readLoop_gets ha g1 g2 h
        · cases h
      · cases h
    · cases mode with
      | fail => cases h
      | skip =>
        dsimp only at h
        split at h
        · rename_i l2 h2
          split at h
          · exact readLoop_gets ha hs (skipElem_gets hc.tail h2) h
          · cases h
        · cases h
      | ignore => exact readLoop_gets ha hs hc.tail h
  | fuel + 1, st, .stop n :: l, st', rest, hs, hc, h => by
    simp only [readLoop] at h
    split at h
    · cases h; exact ⟨hs, hc.tail⟩
    · split at h
      · exact readLoop_gets ha hs hc.tail h
      · cases h
  | fuel + 1, st, .startDocument :: l, st', rest, hs, hc, h => by
    simp only [readLoop] at h
    split at h
    · exact readLoop_gets ha hs hc.tail h
    · cases h
  | fuel + 1, st, .chars _ :: l, st', rest, hs, hc, h => by
    simp only [readLoop] at h
    split at h
    · exact readLoop_gets ha hs hc.tail h
    · cases h
  | fuel + 1, st, .cdata _ :: l, st', rest, hs, hc, h => by
    simp only [readLoop] at h
    split at h
    · exact readLoop_gets ha hs hc.tail h
    · cases h
  | fuel + 1, st, .other :: l, st', rest, hs, hc, h => by
    simp only [readLoop] at h
    split at h
    · exact readLoop_gets ha hs hc.tail h
    · cases h
  | fuel + 1, st, .endDocument :: l, st', rest, hs, hc, h => by
    simp only [readLoop] at h
    split at h
    · exact readLoop_gets ha hs hc.tail h
    · cases h

theorem struct_gets {mode : Unknown} {pre : XName → List (String × String) → Except XErr ρ}
    {init : σ} {arms : List (String × Arm σ)} {fin : XName → ρ → σ → Except XErr α} {Q : α → Prop}
    (P : σ → Prop) (h0 : P init) (ha : ArmsGet P arms)
    (hf : ∀ el attrs p s x, pre el attrs = .ok p → P s → fin el p s = .ok x → Q x) :
    Gets (readStruct mode pre init arms fin) Q := by
  intro el attrs evs x rest hc h
  unfold readStruct at h
  obtain ⟨p, hp, h⟩ := xbind h
  obtain ⟨⟨s, l⟩, hl, h⟩ := xbind h
  obtain ⟨y, hy, h⟩ := xbind h
  obtain ⟨g1, g2⟩ := readLoop_gets ha h0 hc hl
  cases h
  exact ⟨hf _ _ _ _ _ hp g1 hy, g2⟩

theorem with_gets {pre : XName → List (String × String) → Except XErr ρ} {r : XElem α}
    {fin : ρ → α → β} {P : α → Prop} {Q : β → Prop} (hr : Gets r P)
    (hf : ∀ el attrs p x, pre el attrs = .ok p → P x → Q (fin p x)) : Gets (readWith pre r fin) Q := by
  intro el attrs evs x rest hc h
  unfold readWith at h
  obtain ⟨p, hp, h⟩ := xbind h
  obtain ⟨⟨y, l⟩, hl, h⟩ := xbind h
  obtain ⟨g1, g2⟩ := hr _ _ _ _ _ hc hl
  cases h
  exact ⟨hf _ _ _ _ hp g1, g2⟩

theorem mapElem_gets {r : XElem α} {f : α → β} {P : α → Prop} {Q : β → Prop} (hr : Gets r P)
    (hf : ∀ x, P x → Q (f x)) : Gets (r.map f) Q := by
  intro el attrs evs x rest hc h
  unfold XElem.map at h
  obtain ⟨⟨y, l⟩, hl, h⟩ := xbind h
  obtain ⟨g1, g2⟩ := hr _ _ _ _ _ hc hl
  cases h
  exact ⟨hf _ g1, g2⟩

theorem Gets.mono {r : XElem α} {P Q : α → Prop} (hr : Gets r P) (h : ∀ x, P x → Q x) : Gets r Q :=
  fun el attrs evs x rest hc e => ⟨h _ (hr el attrs evs x rest hc e).1, (hr el attrs evs x rest hc e).2⟩

theorem arm_gets {r : XElem α} {set : α → σ → σ} {P : σ → Prop} {Q : α → Prop} (hr : Gets r Q)
    (hs : ∀ y s, P s → Q y → P (set y s)) : ArmGets P (arm r set) := by
  intro n attrs st evs st' rest hp hc h
  unfold arm at h
  obtain ⟨⟨y, l⟩, hl, h⟩ := xbind h
  obtain ⟨g1, g2⟩ := hr _ _ _ _ _ hc hl
  cases h
  exact ⟨hs _ _ hp g1, g2⟩

theorem armOnce_gets {r : XElem α} {isSet : σ → Bool} {set : α → σ → σ} {P : σ → Prop}
    {Q : α → Prop} (hr : Gets r Q) (hs : ∀ y s, P s → Q y → P (set y s)) :
    ArmGets P (armOnce r isSet set) := by
  intro n attrs st evs st' rest hp hc h
  unfold armOnce at h
  split at h
  · cases h
  · exact arm_gets hr hs _ _ _ _ _ _ hp hc h

theorem armsGetNil {P : σ → Prop} : ArmsGet P [] := nofun

theorem armsGetCons {P : σ → Prop} {t : String} {a : Arm σ} {l : List (String × Arm σ)}
    (h : ArmGets P a) (hl : ArmsGet P l) : ArmsGet P ((t, a) :: l) := fun p hp => by
  cases hp with
  | head => exact h
  | tail _ hp => exact hl p hp

theorem armsGetAppend {P : σ → Prop} {l m : List (String × Arm σ)} (h : ArmsGet P l)
    (hl : ArmsGet P m) : ArmsGet P (l ++ m) := fun p hp =>
  (List.mem_append.mp hp).elim (h p) (hl p)

theorem armsGet14 {v w : SpecVersion} {P : σ → Prop} {l : List (String × Arm σ)} (hu : v.ord ≤ w.ord)
    (h : w ≠ .v1_3 → ArmsGet P l) : ArmsGet P (since14 v l []) := by
  cases v with
  | v1_3 => exact armsGetNil
  | v1_4 => exact h (by rintro rfl; exact absurd hu (by decide))
  | v1_5 => exact h (by rintro rfl; exact absurd hu (by decide))

theorem armsGet15 {v w : SpecVersion} {P : σ → Prop} {l : List (String × Arm σ)} (hu : v.ord ≤ w.ord)
    (h : w = .v1_5 → ArmsGet P l) : ArmsGet P (since15 v l []) := by
  cases v with
  | v1_3 => exact armsGetNil
  | v1_4 => exact armsGetNil
  | v1_5 => exact h (by cases w <;> first | rfl | exact absurd hu (by decide))

theorem forall_snoc {P : α → Prop} {l : List α} {x : α} (h : ∀ z ∈ l, P z) (hx : P x) :
    ∀ z ∈ l ++ [x], P z := fun z hz => by
  rcases List.mem_append.mp hz with g | g
  · exact h z g
  · rw [List.mem_singleton.mp g]; exact hx

theorem getD_append {P : α → Prop} {o : Option (List α)} {x : α}
    (h : ∀ y, o = some y → ∀ z ∈ y, P z) (hx : P x) : ∀ z ∈ o.getD [] ++ [x], P z :=
  forall_snoc (fun z hz => by
    cases o with
    | none => cases hz
    | some y => exact h y rfl z hz) hx

theorem noneAll {P : α → Prop} : ∀ y, (none : Option α) = some y → P y := fun _ h => by cases h

theorem list_gets {mode : Unknown} {inner : String} {r : XElem α} {Q : α → Prop} (hr : Gets r Q) :
    Gets (readListWith mode inner r) fun l => ∀ z ∈ l, Q z := by
  intro el attrs evs x rest hc h
  exact readLoop_gets (P := fun l : List α => ∀ z ∈ l, Q z)
    (armsGetCons (arm_gets hr fun y s hs hy => forall_snoc hs hy) armsGetNil) (fun _ hz => by cases hz) hc h

theorem since14_none {v : SpecVersion} {x : Option α} (h : v = .v1_3 → x = none) :
    since14 v x none = x := by
  cases v with
  | v1_3 => exact (h rfl).symm
  | v1_4 => rfl
  | v1_5 => rfl

theorem since15_none {v : SpecVersion} {x : Option α} (h : v ≠ .v1_5 → x = none) :
    since15 v x none = x := by
  cases v with
  | v1_3 => exact (h nofun).symm
  | v1_4 => exact (h nofun).symm
  | v1_5 => rfl

end Cdx
