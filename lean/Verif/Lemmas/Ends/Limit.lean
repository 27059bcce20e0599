import Verif.Lemmas.Ends.Types

set_option linter.unusedSectionVars false

/-!
# The limit on nested components and services matters only for longer documents
-/

namespace Cdx

variable {σ α β ρ : Type} {m : Nat}

/-- Two readers give the same on at most `m` events. -/
def Alike (m : Nat) (r r' : XElem α) : Prop :=
  ∀ n attrs evs, evs.length ≤ m → r n attrs evs = r' n attrs evs

/-- `Alike` for arms of reader loops. -/
def AlikeArm (m : Nat) (a a' : Arm σ) : Prop :=
  ∀ n attrs st evs, evs.length ≤ m → a n attrs st evs = a' n attrs st evs

/-- `Alike` for the tags that readers know. -/
inductive AlikeArms (m : Nat) : List (String × Arm σ) → List (String × Arm σ) → Prop
  | nil : AlikeArms m [] []
  | cons {t : String} {a a' : Arm σ} {l l'} : AlikeArm m a a' → AlikeArms m l l' →
      AlikeArms m ((t, a) :: l) ((t, a') :: l')

theorem alike_refl (r : XElem α) : Alike m r r := fun _ _ _ _ => rfl

theorem alikeArm_refl (a : Arm σ) : AlikeArm m a a := fun _ _ _ _ _ => rfl

theorem AlikeArms.append {l₁ l₁' l₂ l₂' : List (String × Arm σ)} (h : AlikeArms m l₁ l₁')
    (h' : AlikeArms m l₂ l₂') : AlikeArms m (l₁ ++ l₂) (l₁' ++ l₂') := by
  induction h with
  | nil => exact h'
  | cons ha _ ih => exact .cons ha ih

theorem AlikeArms.since14 {v : SpecVersion} {l₁ l₁' l₂ l₂' : List (String × Arm σ)}
    (h : AlikeArms m l₁ l₁') (h' : AlikeArms m l₂ l₂') :
    AlikeArms m (since14 v l₁ l₂) (since14 v l₁' l₂') := by
  cases v
  · exact h'
  · exact h
  · exact h

theorem AlikeArms.since15 {v : SpecVersion} {l₁ l₁' l₂ l₂' : List (String × Arm σ)}
    (h : AlikeArms m l₁ l₁') (h' : AlikeArms m l₂ l₂') :
    AlikeArms m (since15 v l₁ l₂) (since15 v l₁' l₂') := by
  cases v
  · exact h'
  · exact h'
  · exact h

theorem AlikeArms.lookup {l l' : List (String × Arm σ)} (h : AlikeArms m l l') (t : String) :
    (l.lookup t = none ∧ l'.lookup t = none) ∨
    ∃ a a', l.lookup t = some a ∧ l'.lookup t = some a' ∧ AlikeArm m a a' := by
  induction h with
  | nil => exact .inl ⟨rfl, rfl⟩
  | @cons t' a a' l l' ha _ ih =>
    simp only [List.lookup_cons]
    cases t == t' with
    | true => exact .inr ⟨a, a', rfl, rfl, ha⟩
    | false => exact ih

theorem arm_alike {r r' : XElem α} (h : Alike m r r') (set : α → σ → σ) :
    AlikeArm m (arm r set) (arm r' set) := by
  intro n attrs st evs he
  simp only [arm]
  rw [h n attrs evs he]

theorem readLoop_alike {mode : Unknown} {isEnd : XName → Bool} {el : XName}
    {arms arms' : List (String × Arm σ)} (h : AlikeArms m arms arms') :
    ∀ (fuel : Nat) (st : σ) (evs : List XEvent), evs.length ≤ m + 1 →
      readLoop mode isEnd el arms fuel st evs = readLoop mode isEnd el arms' fuel st evs
  | 0, _, _, _ => rfl
  | _ + 1, _, [], _ => rfl
  | fuel + 1, st, e :: l, hm => by
    simp only [List.length_cons] at hm
    have next : ∀ st' (l' : List XEvent), l'.length ≤ l.length →
        readLoop mode isEnd el arms fuel st' l' = readLoop mode isEnd el arms' fuel st' l' :=
      fun st' l' hl => readLoop_alike h fuel st' l' (by omega)
    cases e with
    | start n attrs ns =>
      simp only [readLoop]
      rcases h.lookup n.localName with ⟨h1, h2⟩ | ⟨a, a', h1, h2, ha⟩
      · rw [h1, h2]
        simp only
        cases mode with
        | fail => rfl
        | ignore => exact next st l (Nat.le_refl _)
        | skip =>
          simp only
          cases skipElem [n] l with
          | error x => rfl
          | ok l' =>
            simp only
            split
            · rename_i hl
              exact next st l' hl
            · rfl
      · rw [h1, h2]
        simp only
        rw [ha n attrs st l (by omega)]
        cases a' n attrs st l with
        | error x => rfl
        | ok r =>
          simp only
          split
          · rename_i hl
            exact next _ _ hl
          · rfl
    | stop n =>
      simp only [readLoop]
      rw [next st l (Nat.le_refl _)]
    | _ =>
      simp only [readLoop]
      rw [next st l (Nat.le_refl _)]

theorem readStruct_alike_above {mode : Unknown}
    {pre : XName → List (String × String) → Except XErr ρ}
    {init : σ} {arms arms' : List (String × Arm σ)} {fin : XName → ρ → σ → Except XErr α}
    (h : AlikeArms m arms arms') :
    Alike (m + 1) (readStruct mode pre init arms fin) (readStruct mode pre init arms' fin) := by
  intro el attrs evs he
  simp only [readStruct, readFields]
  rw [readLoop_alike h _ _ _ he]

theorem Alike.mono {r r' : XElem α} {k : Nat} (h : Alike m r r') (hk : k ≤ m) : Alike k r r' :=
  fun n attrs evs he => h n attrs evs (Nat.le_trans he hk)

theorem readStruct_alike {mode : Unknown}
    {pre : XName → List (String × String) → Except XErr ρ}
    {init : σ} {arms arms' : List (String × Arm σ)} {fin : XName → ρ → σ → Except XErr α}
    (h : AlikeArms m arms arms') :
    Alike m (readStruct mode pre init arms fin) (readStruct mode pre init arms' fin) :=
  (readStruct_alike_above h).mono (Nat.le_succ _)

theorem readListWith_alike {mode : Unknown} {inner : String} {r r' : XElem α} (h : Alike m r r') :
    Alike m (readListWith mode inner r) (readListWith mode inner r') := fun _ _ evs he =>
  readLoop_alike (.cons (arm_alike h _) .nil) _ [] evs (Nat.le_succ_of_le he)

theorem readList_alike {inner : String} {r r' : XElem α} (h : Alike m r r') :
    Alike m (readList inner r) (readList inner r') := readListWith_alike h

theorem readListLax_alike {inner : String} {r r' : XElem α} (h : Alike m r r') :
    Alike m (readListLax inner r) (readListLax inner r') := readListWith_alike h

/-- Goes through the tags that a reader knows. -/
macro "alike" : tactic => `(tactic| repeat' first
  | assumption
  | exact AlikeArms.nil | with_reducible refine AlikeArms.cons ?_ ?_
  | with_reducible refine AlikeArms.append ?_ ?_
  | with_reducible refine AlikeArms.since14 ?_ ?_ | with_reducible refine AlikeArms.since15 ?_ ?_
  | with_reducible exact alikeArm_refl _
  | with_reducible refine arm_alike ?_ _
  | with_reducible refine readList_alike ?_ | with_reducible refine readListLax_alike ?_)

variable [F32Format]

theorem Service.alikeWith {v : SpecVersion} {sub sub' : XElem Service} (h : Alike m sub sub') :
    Alike (m + 1) (Service.readXmlWith sub v) (Service.readXmlWith sub' v) :=
  readStruct_alike_above (by unfold Service.armsWith; alike)

theorem Pedigree.alikeWith {v : SpecVersion} {sub sub' : XElem Component} (h : Alike m sub sub') :
    Alike m (Pedigree.readXmlWith sub v) (Pedigree.readXmlWith sub' v) :=
  readStruct_alike (by unfold Pedigree.armsWith; alike)

theorem Component.alikeWith {v : SpecVersion} {sub sub' : XElem Component} (h : Alike m sub sub') :
    Alike (m + 1) (Component.readXmlWith sub v) (Component.readXmlWith sub' v) := by
  have hp := Pedigree.alikeWith (v := v) h
  exact readStruct_alike_above (by unfold Component.armsWith; alike)

theorem readStruct_alike_nil {mode : Unknown}
    {pre : XName → List (String × String) → Except XErr ρ}
    {init : σ} {arms arms' : List (String × Arm σ)} {fin : XName → ρ → σ → Except XErr α} :
    Alike 0 (readStruct mode pre init arms fin) (readStruct mode pre init arms' fin) := by
  intro el attrs evs he
  obtain rfl : evs = [] := List.eq_nil_of_length_eq_zero (Nat.le_zero.mp he)
  simp only [readStruct]
  cases pre el attrs with
  | error e => rfl
  | ok p => rfl

theorem Service.alikeN {v : SpecVersion} : ∀ {m a b : Nat}, m < a → m < b →
    Alike m (Service.readXmlN v a) (Service.readXmlN v b)
  | _, 0, _, h, _ => by omega
  | _, _ + 1, 0, _, h => by omega
  | 0, a + 1, b + 1, _, _ => show Alike 0 (Service.readXmlWith (Service.readXmlN v a) v)
      (Service.readXmlWith (Service.readXmlN v b) v) from readStruct_alike_nil
  | _ + 1, _ + 1, _ + 1, h, h' => Service.alikeWith (Service.alikeN (by omega) (by omega))

theorem Component.alikeN {v : SpecVersion} : ∀ {m a b : Nat}, m < a → m < b →
    Alike m (Component.readXmlN v a) (Component.readXmlN v b)
  | _, 0, _, h, _ => by omega
  | _, _ + 1, 0, _, h => by omega
  | 0, a + 1, b + 1, _, _ => show Alike 0 (Component.readXmlWith (Component.readXmlN v a) v)
      (Component.readXmlWith (Component.readXmlN v b) v) from readStruct_alike_nil
  | _ + 1, _ + 1, _ + 1, h, h' => Component.alikeWith (Component.alikeN (by omega) (by omega))

section
variable {i j : ReadLimit} {v : SpecVersion}

theorem Service.alike (hi : m < i.limit) (hj : m < j.limit) :
    Alike m (@Service.readXml i v) (@Service.readXml j v) := Service.alikeN hi hj

theorem Component.alike (hi : m < i.limit) (hj : m < j.limit) :
    Alike m (@Component.readXml _ i v) (@Component.readXml _ j v) := Component.alikeN hi hj

theorem Tools.alike (hi : m < i.limit) (hj : m < j.limit) :
    Alike m (@Tools.readXml _ i v) (@Tools.readXml _ j v) := by
  have hs := Service.alike (v := v) hi hj
  have hc := Component.alike (v := v) hi hj
  exact readStruct_alike (by unfold Tools.arms; alike)

theorem Metadata.alike (hi : m < i.limit) (hj : m < j.limit) :
    Alike m (@Metadata.readXml _ i v) (@Metadata.readXml _ j v) := by
  have ht := Tools.alike (v := v) hi hj
  have hc := Component.alike (v := v) hi hj
  exact readStruct_alike (by unfold Metadata.arms; alike)

theorem Vulnerability.alike (hi : m < i.limit) (hj : m < j.limit) :
    Alike m (@Vulnerability.readXml _ i v) (@Vulnerability.readXml _ j v) := by
  have ht := Tools.alike (v := v) hi hj
  exact readStruct_alike (by unfold Vulnerability.arms; alike)

theorem Formula.alike (hi : m < i.limit) (hj : m < j.limit) :
    Alike m (@Formula.readXml _ i v) (@Formula.readXml _ j v) := by
  have hs := Service.alike (v := v) hi hj
  have hc := Component.alike (v := v) hi hj
  exact readStruct_alike (by unfold Formula.arms; alike)

theorem Annotator.alike (hi : m < i.limit) (hj : m < j.limit) :
    Alike m (@Annotator.readXml _ i v) (@Annotator.readXml _ j v) := by
  have hs := Service.alike (v := v) hi hj
  have hc := Component.alike (v := v) hi hj
  exact readStruct_alike (by unfold Annotator.arms; alike)

theorem Annotation.alike (hi : m < i.limit) (hj : m < j.limit) :
    Alike m (@Annotation.readXml _ i v) (@Annotation.readXml _ j v) := by
  have ha := Annotator.alike (v := v) hi hj
  exact readStruct_alike (by unfold Annotation.arms; alike)

theorem Bom.arms_alike (hi : m < i.limit) (hj : m < j.limit) :
    AlikeArms m (@Bom.arms _ i v) (@Bom.arms _ j v) := by
  have hm := Metadata.alike (v := v) hi hj
  have hs := Service.alike (v := v) hi hj
  have hc := Component.alike (v := v) hi hj
  have hv := Vulnerability.alike (v := v) hi hj
  have ha := Annotation.alike (v := v) hi hj
  have hf := Formula.alike (v := v) hi hj
  unfold Bom.arms
  alike

end

end Cdx
