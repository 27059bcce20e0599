import Verif.Lemmas.Readable

/-!
# Computing whether a document can be read
-/

namespace Cdx

open Spec

set_option linter.unusedVariables false

/-- Computes `Has`. -/
def hasEval (k : String) : Json → Bool
  | .obj o => o.any (·.1 == k)
  | _ => false

theorem hasEval_iff {k : String} {j : Json} : hasEval k j = true ↔ Has k j := by
  cases j with
  | obj o =>
    simp only [hasEval, List.any_eq_true, beq_iff_eq, Prod.exists]
    constructor
    · rintro ⟨a, b, h, rfl⟩
      exact ⟨o, b, rfl, h⟩
    · rintro ⟨_, x, e, h⟩
      cases e
      exact ⟨k, x, h, rfl⟩
  | _ => exact ⟨fun h => (by cases h), fun ⟨_, _, e, _⟩ => (by cases e)⟩

/-- Computes `Small`. -/
def smallEval : Json → Bool
  | .nat n => n < 2 ^ 32
  | _ => false

theorem smallEval_sound {j : Json} (h : smallEval j = true) : Small j := by
  cases j with
  | nat n => exact ⟨n, of_decide_eq_true h, rfl⟩
  | _ => cases h

def isObj : Json → Bool
  | .obj _ => true
  | _ => false

theorem isObj_sound {j : Json} (h : isObj j = true) : ∃ p, j = .obj p := by
  cases j with
  | obj p => exact ⟨p, rfl⟩
  | _ => cases h

def isStr : Json → Bool
  | .str _ => true
  | _ => false

theorem isStr_sound {j : Json} (h : isStr j = true) : ∃ s, j = .str s := by
  cases j with
  | str p => exact ⟨p, rfl⟩
  | _ => cases h

/-- The items of an array. -/
def itemsEval (p : Json → Bool) : Json → Bool
  | .arr l => l.all p
  | _ => true

/-- What `Readable` asks of one member. -/
def memberEval (o : List (String × Json)) (m : String × Json) : Bool :=
  (match m.2 with | .nat n => true | .float _ => !["version", "tagVersion", "line", "column"].contains m.1 | .other => false | _ => true) &&
  (!["version", "tagVersion", "line", "column"].contains m.1 || (match m.2 with | .nat n => n < 2 ^ 32 | _ => true)) &&
  (m.1 != "cwes" || itemsEval smallEval m.2) &&
  (m.1 != "properties" || itemsEval (fun x => hasEval "name" x && hasEval "value" x) m.2) &&
  (m.1 != "environmentVars" || itemsEval (fun x => isStr x || (hasEval "name" x && hasEval "value" x)) m.2) &&
  (m.1 != "versions" || itemsEval (hasEval "status") m.2) &&
  (m.1 != "affects" || itemsEval isObj m.2) &&
  (m.1 != "references" || hasEval "type" (.obj o) || itemsEval isObj m.2) &&
  (m.1 != "callstack" || hasEval "frames" m.2) &&
  (m.1 != "data" || !hasEval "type" (.obj o) || (match m.2 with | .arr _ => false | _ => true)) &&
  (m.1 != "signature" || (match m.2 with
    | .obj p => p.any fun q => q.1 == "algorithm" && (match q.2 with | .str a => signatureAlgorithms.contains a | _ => false)
    | _ => false)) &&
  (m.1 != "datasets" || itemsEval (hasEval "type") m.2) &&
  (m.1 != "sensitiveData") &&
  (m.1 != "governance" || !hasEval "type" (.obj o) || (match m.2 with
    | .obj p => p.all fun q => !["custodians", "stewards", "owners"].contains q.1 ||
        (match q.2 with | .arr l => l.isEmpty | _ => true)
    | _ => true)) &&
  (m.1 != "bomRef" || isStr m.2) &&
  (!hasEval "license" (.obj o) || m.1 == "license")

theorem memberEval_sound {o : List (String × Json)} (h : ∀ m ∈ o, memberEval o m = true) : Readable o := by
  have h' : ∀ k x, (k, x) ∈ o → _ := fun k x hm => h (k, x) hm
  simp only [memberEval, Bool.and_eq_true] at h'
  have items : ∀ {p : Json → Bool} {l : List Json}, itemsEval p (.arr l) = true → ∀ x ∈ l, p x = true :=
    fun h => List.all_eq_true.mp h
  constructor
  case small =>
    intro k x hm hk hn
    obtain ⟨⟨⟨⟨⟨⟨⟨⟨⟨⟨⟨⟨⟨⟨⟨h0, h1⟩, -⟩, -⟩, -⟩, -⟩, -⟩, -⟩, -⟩, -⟩, -⟩, -⟩, -⟩, -⟩, -⟩, -⟩ := h' k x hm
    have hk' : ["version", "tagVersion", "line", "column"].contains k = true := List.contains_iff_mem.mpr hk
    simp only [hk', Bool.not_true, Bool.false_or] at h0 h1
    cases x with
    | nat n => exact ⟨n, of_decide_eq_true h1, rfl⟩
    | float y => cases h0
    | other => cases h0
    | _ => cases hn
  case cwes =>
    intro l hm x hx
    obtain ⟨⟨⟨⟨⟨⟨⟨⟨⟨⟨⟨⟨⟨⟨-, h1⟩, -⟩, -⟩, -⟩, -⟩, -⟩, -⟩, -⟩, -⟩, -⟩, -⟩, -⟩, -⟩, -⟩ := h' _ _ hm
    exact smallEval_sound (items (by simpa using h1) x hx)
  case numbers =>
    intro k hm
    obtain ⟨⟨⟨⟨⟨⟨⟨⟨⟨⟨⟨⟨⟨⟨⟨h0, -⟩, -⟩, -⟩, -⟩, -⟩, -⟩, -⟩, -⟩, -⟩, -⟩, -⟩, -⟩, -⟩, -⟩, -⟩ := h' _ _ hm
    cases h0
  case named =>
    intro l hm x hx
    obtain ⟨⟨⟨⟨⟨⟨⟨⟨⟨⟨⟨⟨⟨-, h1⟩, -⟩, -⟩, -⟩, -⟩, -⟩, -⟩, -⟩, -⟩, -⟩, -⟩, -⟩, -⟩ := h' _ _ hm
    have := items (by simpa using h1) x hx
    simp only [Bool.and_eq_true, hasEval_iff] at this
    exact this
  case environment =>
    intro l hm x hx
    obtain ⟨⟨⟨⟨⟨⟨⟨⟨⟨⟨⟨⟨-, h1⟩, -⟩, -⟩, -⟩, -⟩, -⟩, -⟩, -⟩, -⟩, -⟩, -⟩, -⟩ := h' _ _ hm
    have := items (by simpa using h1) x hx
    simp only [Bool.or_eq_true, Bool.and_eq_true, hasEval_iff] at this
    exact this.imp isStr_sound id
  case versions =>
    intro l hm x hx
    obtain ⟨⟨⟨⟨⟨⟨⟨⟨⟨⟨⟨-, h1⟩, -⟩, -⟩, -⟩, -⟩, -⟩, -⟩, -⟩, -⟩, -⟩, -⟩ := h' _ _ hm
    exact hasEval_iff.mp (items (by simpa using h1) x hx)
  case targets =>
    intro l hm x hx
    obtain ⟨⟨⟨⟨⟨⟨⟨⟨⟨⟨-, h1⟩, -⟩, -⟩, -⟩, -⟩, -⟩, -⟩, -⟩, -⟩, -⟩ := h' _ _ hm
    exact isObj_sound (items (by simpa using h1) x hx)
  case references =>
    intro l ht hm x hx
    obtain ⟨⟨⟨⟨⟨⟨⟨⟨⟨-, h1⟩, -⟩, -⟩, -⟩, -⟩, -⟩, -⟩, -⟩, -⟩ := h' _ _ hm
    have ht' : hasEval "type" (.obj o) = false := by
      cases e : hasEval "type" (.obj o) with
      | false => rfl
      | true => exact absurd (hasEval_iff.mp e) ht
    rw [ht'] at h1
    exact isObj_sound (items (by simpa using h1) x hx)
  case frames =>
    intro x hm
    obtain ⟨⟨⟨⟨⟨⟨⟨⟨-, h1⟩, -⟩, -⟩, -⟩, -⟩, -⟩, -⟩, -⟩ := h' _ _ hm
    exact hasEval_iff.mp (by simpa using h1)
  case data =>
    intro ht l hm
    obtain ⟨⟨⟨⟨⟨⟨⟨-, h1⟩, -⟩, -⟩, -⟩, -⟩, -⟩, -⟩ := h' _ _ hm
    rw [hasEval_iff.mpr ht] at h1
    simp at h1
  case signature =>
    intro x hm
    obtain ⟨⟨⟨⟨⟨⟨-, h1⟩, -⟩, -⟩, -⟩, -⟩, -⟩ := h' _ _ hm
    cases x with
    | obj p =>
      simp only [bne_self_eq_false, Bool.false_or, List.any_eq_true, Bool.and_eq_true, beq_iff_eq, Prod.exists] at h1
      obtain ⟨k, y, hk, rfl, hy⟩ := h1
      cases y with
      | str a => exact ⟨p, a, rfl, hk, List.contains_iff_mem.mp hy⟩
      | _ => cases hy
    | _ => simp at h1
  case datasets =>
    intro l hm x hx
    obtain ⟨⟨⟨⟨⟨-, h1⟩, -⟩, -⟩, -⟩, -⟩ := h' _ _ hm
    exact hasEval_iff.mp (items (by simpa using h1) x hx)
  case sensitive =>
    intro x hm
    obtain ⟨⟨⟨⟨-, h1⟩, -⟩, -⟩, -⟩ := h' _ _ hm
    simp at h1
  case governance =>
    intro ht p hm k hk l hl
    obtain ⟨⟨⟨-, h1⟩, -⟩, -⟩ := h' _ _ hm
    rw [hasEval_iff.mpr ht] at h1
    simp only [bne_self_eq_false, Bool.not_true, Bool.false_or] at h1
    have h2 := List.all_eq_true.mp h1 (k, .arr l) hl
    simp only [List.contains_iff_mem.mpr hk, Bool.not_true, Bool.false_or, List.isEmpty_iff] at h2
    exact h2
  case bomRef =>
    intro x hm
    obtain ⟨⟨-, h1⟩, -⟩ := h' _ _ hm
    exact isStr_sound (by simpa using h1)
  case license =>
    intro ht k x hm
    obtain ⟨-, h1⟩ := h' _ _ hm
    rw [hasEval_iff.mpr ht] at h1
    simpa using h1

/-- Computes `Json.Unique` and `Within`. -/
def shapeEval : Nat → Json → Bool
  | 0, .arr _ => false
  | 0, .obj _ => false
  | n + 1, .arr l => l.all (shapeEval n)
  | n + 1, .obj o => decide (o.map Prod.fst).Nodup && o.all fun m => shapeEval n m.2
  | _, _ => true

theorem shapeEval_sound : ∀ (n : Nat) (j : Json), shapeEval n j = true → j.Unique ∧ Within n j
  | _, .null, _ => ⟨.null, .null⟩
  | _, .bool _, _ => ⟨.bool, .bool⟩
  | _, .nat _, _ => ⟨.nat, .nat⟩
  | _, .float _, _ => ⟨.float, .float⟩
  | _, .other, _ => ⟨.other, .other⟩
  | _, .str _, _ => ⟨.str, .str⟩
  | 0, .arr _, h => nomatch h
  | 0, .obj _, h => nomatch h
  | n + 1, .arr l, h => by
    have h : ∀ x ∈ l, _ := fun x hx => shapeEval_sound n x (List.all_eq_true.mp h x hx)
    exact ⟨.arr fun x hx => (h x hx).1, .arr fun x hx => (h x hx).2⟩
  | n + 1, .obj o, h => by
    simp only [shapeEval, Bool.and_eq_true, decide_eq_true_eq, List.all_eq_true] at h
    have h' : ∀ m ∈ o, _ := fun m hm => shapeEval_sound n m.2 (h.2 m hm)
    exact ⟨.obj h.1 fun x hx => (h' x hx).1, .obj fun x hx => (h' x hx).2⟩

/-- Computes `Sane`. -/
def saneEval : Nat → Json → Bool
  | 0, .arr _ => false
  | 0, .obj _ => false
  | n + 1, .arr l => l.all (saneEval n)
  | n + 1, .obj o => decide (o.map Prod.fst).Nodup && o.all (memberEval o) && o.all fun m => saneEval n m.2
  | _, _ => true

theorem saneEval_sound : ∀ (n : Nat) (j : Json), saneEval n j = true → Sane n j
  | _, .null, _ => ⟨.null, .null, .null⟩
  | _, .bool _, _ => ⟨.bool, .bool, .bool⟩
  | _, .nat _, _ => ⟨.nat, .nat, .nat⟩
  | _, .float _, _ => ⟨.float, .float, .float⟩
  | _, .other, _ => ⟨.other, .other, .other⟩
  | _, .str _, _ => ⟨.str, .str, .str⟩
  | 0, .arr _, h => nomatch h
  | 0, .obj _, h => nomatch h
  | n + 1, .arr l, h => by
    have h : ∀ x ∈ l, Sane n x := fun x hx => saneEval_sound n x (List.all_eq_true.mp h x hx)
    exact ⟨.arr fun x hx => (h x hx).1, .arr fun x hx => (h x hx).2, .arr fun x hx => (h x hx).3⟩
  | n + 1, .obj o, h => by
    simp only [saneEval, Bool.and_eq_true, decide_eq_true_eq, List.all_eq_true] at h
    have h' : ∀ m ∈ o, Sane n m.2 := fun m hm => saneEval_sound n m.2 (h.2 m hm)
    exact ⟨.obj h.1.1 fun x hx => (h' x hx).1, .obj (memberEval_sound h.1.2) fun x hx => (h' x hx).2,
      .obj fun x hx => (h' x hx).3⟩

end Cdx
