import Verif.Lemmas.Lossless
import Verif.Lemmas.ReadableEval

/-!
# Computing whether a document loses nothing
-/

namespace Cdx

open Spec

set_option linter.unusedVariables false

/-- Computes `OnlyHas`. -/
def onlyHasEval (l : List String) : Json → Bool
  | .obj p => p.all fun m => l.contains m.1
  | _ => true

theorem onlyHasEval_sound {l : List String} {p : List (String × Json)} (h : onlyHasEval l (.obj p) = true) : OnlyHas l p :=
  fun k x hm => List.contains_iff_mem.mp (List.all_eq_true.mp h (k, x) hm)

/-- What `Lossless` asks of one member. -/
def keptEval [F32Format] (m : String × Json) : Bool :=
  (!["$schema", "releaseNotes", "response", "confidenceInterval", "sizeAllocated"].contains m.1) &&
  (!["supplier", "manufacture", "provider", "organization", "individual", "license", "modelCard"].contains m.1 ||
    !hasEval "bom-ref" m.2) &&
  (!["authors", "contact", "organizations", "individuals", "licenses", "occurrences", "compositions", "datasets"].contains m.1 ||
    itemsEval (fun x => !hasEval "bom-ref" x) m.2) &&
  (m.1 != "considerations" || (match m.2 with | .obj [] => true | _ => false)) &&
  (m.1 != "signature" || onlyHasEval ["algorithm", "value"] m.2) &&
  (m.1 != "data" || itemsEval (onlyHasEval ["flow", "classification"]) m.2) &&
  (!["properties", "environmentVars"].contains m.1 || itemsEval (onlyHasEval ["name", "value"]) m.2) &&
  (m.1 != "proofOfConcept" || onlyHasEval ["reproductionSteps", "environment", "supportingMaterial"] m.2) &&
  (m.1 != "dependsOn" || (match m.2 with | .arr [] => false | _ => true)) &&
  (m.1 != "volume" || hasEval "mode" m.2) &&
  (m.1 != "licensing" ||
    ["altIds", "licensor", "licensee", "purchaser", "purchaseOrder", "licenseTypes", "lastRenewal", "expiration"].all
      fun k => hasEval k m.2) &&
  (!["score", "confidence"].contains m.1 ||
    (match m.2 with | .nat n => decide ((n : ℚ) = numberOf (F32Format.ofNat n)) | _ => true))

theorem keptEval_sound [F32Format] {o : List (String × Json)} (h : ∀ m ∈ o, keptEval m = true) : Lossless o := by
  have h' : ∀ k x, (k, x) ∈ o → _ := fun k x hm => h (k, x) hm
  simp only [keptEval, Bool.and_eq_true] at h'
  have items : ∀ {p : Json → Bool} {l : List Json}, itemsEval p (.arr l) = true → ∀ x ∈ l, p x = true :=
    fun h => List.all_eq_true.mp h
  have no : ∀ {k : String} {x : Json}, (!hasEval k x) = true → ¬ Has k x := fun h hh => by
    rw [hasEval_iff.mpr hh] at h
    cases h
  constructor
  case dropped =>
    intro k hk x hm
    obtain ⟨⟨⟨⟨⟨⟨⟨⟨⟨⟨⟨h0, -⟩, -⟩, -⟩, -⟩, -⟩, -⟩, -⟩, -⟩, -⟩, -⟩, -⟩ := h' _ _ hm
    rw [List.contains_iff_mem.mpr hk] at h0
    cases h0
  case noRef =>
    intro k x hm hk
    obtain ⟨⟨⟨⟨⟨⟨⟨⟨⟨⟨⟨-, h0⟩, -⟩, -⟩, -⟩, -⟩, -⟩, -⟩, -⟩, -⟩, -⟩, -⟩ := h' _ _ hm
    simp only [List.contains_iff_mem.mpr hk, Bool.not_true, Bool.false_or] at h0
    exact no h0
  case noRefs =>
    intro k l hm hk x hx
    obtain ⟨⟨⟨⟨⟨⟨⟨⟨⟨⟨-, h0⟩, -⟩, -⟩, -⟩, -⟩, -⟩, -⟩, -⟩, -⟩, -⟩ := h' _ _ hm
    simp only [List.contains_iff_mem.mpr hk, Bool.not_true, Bool.false_or] at h0
    exact no (items h0 x hx)
  case considerations =>
    intro x hm
    obtain ⟨⟨⟨⟨⟨⟨⟨⟨⟨-, h0⟩, -⟩, -⟩, -⟩, -⟩, -⟩, -⟩, -⟩, -⟩ := h' _ _ hm
    simp only [bne_self_eq_false, Bool.false_or] at h0
    split at h0
    · rfl
    · cases h0
  case signature =>
    intro x hm
    obtain ⟨⟨⟨⟨⟨⟨⟨⟨-, h0⟩, -⟩, -⟩, -⟩, -⟩, -⟩, -⟩, -⟩ := h' _ _ hm
    exact onlyHasEval_sound (by simpa using h0)
  case data =>
    intro l hm p hp
    obtain ⟨⟨⟨⟨⟨⟨⟨-, h0⟩, -⟩, -⟩, -⟩, -⟩, -⟩, -⟩ := h' _ _ hm
    exact onlyHasEval_sound (items (by simpa using h0) _ hp)
  case properties =>
    intro k l hm hk p hp
    obtain ⟨⟨⟨⟨⟨⟨-, h0⟩, -⟩, -⟩, -⟩, -⟩, -⟩ := h' _ _ hm
    simp only [List.contains_iff_mem.mpr hk, Bool.not_true, Bool.false_or] at h0
    exact onlyHasEval_sound (items h0 _ hp)
  case proofOfConcept =>
    intro x hm
    obtain ⟨⟨⟨⟨⟨-, h0⟩, -⟩, -⟩, -⟩, -⟩ := h' _ _ hm
    exact onlyHasEval_sound (by simpa using h0)
  case dependsOn =>
    intro hm
    obtain ⟨⟨⟨⟨-, h0⟩, -⟩, -⟩, -⟩ := h' _ _ hm
    simp at h0
  case mode =>
    intro x hm
    obtain ⟨⟨⟨-, h0⟩, -⟩, -⟩ := h' _ _ hm
    exact hasEval_iff.mp (by simpa using h0)
  case licensing =>
    intro x hm k hk
    obtain ⟨⟨-, h0⟩, -⟩ := h' _ _ hm
    simp only [bne_self_eq_false, Bool.false_or] at h0
    exact hasEval_iff.mp (List.all_eq_true.mp h0 k hk)
  case exact =>
    intro k n hm hk
    obtain ⟨-, h0⟩ := h' _ _ hm
    simp only [List.contains_iff_mem.mpr hk, Bool.not_true, Bool.false_or] at h0
    exact of_decide_eq_true h0

/-- Computes whether every object is `Lossless`. -/
def losslessEval [F32Format] : Nat → Json → Bool
  | 0, .arr _ => false
  | 0, .obj _ => false
  | n + 1, .arr l => l.all (losslessEval n)
  | n + 1, .obj o => o.all keptEval && o.all fun m => losslessEval n m.2
  | _, _ => true

theorem losslessEval_sound [F32Format] : ∀ (n : Nat) (j : Json), losslessEval n j = true → Everywhere Lossless j
  | _, .null, _ => .null
  | _, .bool _, _ => .bool
  | _, .nat _, _ => .nat
  | _, .float _, _ => .float
  | _, .other, _ => .other
  | _, .str _, _ => .str
  | 0, .arr _, h => nomatch h
  | 0, .obj _, h => nomatch h
  | n + 1, .arr l, h => .arr fun x hx => losslessEval_sound n x (List.all_eq_true.mp h x hx)
  | n + 1, .obj o, h => by
    simp only [losslessEval, Bool.and_eq_true, List.all_eq_true] at h
    exact .obj (keptEval_sound h.1) fun m hm => losslessEval_sound n m.2 (h.2 m hm)

end Cdx
