import Verif.Props.Documents
import Verif.Lemmas.Only.Document
import Verif.Spec.Checks

/-!
# Property C77: exactly which documents come back from JSON
-/

set_option linter.unusedSectionVars false

namespace Cdx.Props
open Cdx

section
variable [F32Format] [ReadLimit] {v : SpecVersion} {b : Bom}

/-- C77: a document can be written as JSON and read back, without a change other than the loss of
what the version does not have, exactly if it satisfies `Bom.JsonOk`: whatever violates this
condition is not written, cannot be read again or comes back changed. -/
theorem C77_exact : (∃ j, b.outputJson v = .ok j ∧ Bom.parseJson j = .ok (b.at v)) ↔
    Bom.JsonOk v b := by
  constructor
  · rintro ⟨j, h1, h2⟩
    unfold Bom.outputJson at h1
    split at h1
    · cases h1
      rw [C35_selects written_labelled, Bom.parseJsonWith, Bom.ofJson_written] at h2
      exact Bom.json_only v h2
    · cases h1
  · intro h
    obtain ⟨j, h1, h2, -⟩ := C44_json_partial h
    exact ⟨j, h1, h2⟩

/-- C77: the same for the reader that is told the version. -/
theorem C77_exact_with : (∃ j, b.outputJson v = .ok j ∧ Bom.parseJsonWith v j = .ok (b.at v)) ↔
    Bom.JsonOk v b := by
  constructor
  · rintro ⟨j, h1, h2⟩
    unfold Bom.outputJson at h1
    split at h1
    · cases h1
      exact Bom.json_only v h2
    · cases h1
  · intro h
    obtain ⟨j, h1, -, h2⟩ := C44_json_partial h
    exact ⟨j, h1, h2⟩

/-- C77: for version 1.5, which has everything a document can contain, the document comes back
itself. -/
theorem C77_same (hv : b.specVersion = .v1_5) :
    (∃ j, b.outputJson .v1_5 = .ok j ∧ Bom.parseJson j = .ok b) ↔ Bom.JsonOk .v1_5 b := by
  rw [← C77_exact]
  have : b.at .v1_5 = b := by
    rw [Bom.at_v1_5]
    cases b
    cases hv
    rfl
  rw [this]

end

/-- C77: the numbers that `Bom.JsonOk` admits are those that stand for a number in the sense of
IEEE 754, and not for an infinity or for "not a number". -/
theorem C77_numbers (x : F32) : x.isFinite = true ↔ ∃ n, Spec.f32Value x = some n := by
  have hb : x.toNat < 2 ^ 32 := x.isLt
  have h1 : x.toNat / 2 ^ 23 % 2 ^ 8 = 255 ↔ ¬ x.toNat % 2 ^ 31 < 0x7f800000 := by omega
  unfold F32.isFinite Spec.f32Value
  simp only [decide_eq_true_eq]
  by_cases h : x.toNat / 2 ^ 23 % 2 ^ 8 = 255
  · simp [h, h1.1 h]
  · have h2 : x.toNat % 2 ^ 31 < 0x7f800000 := Decidable.not_not.1 fun hn => h (h1.2 hn)
    simp [h, h2]

example : F32.isFinite 0x3f800000 = true ∧ F32.isFinite 0x7f800000 = false ∧
    F32.isFinite 0xffc00000 = false := by decide

attribute [local instance] Example.f32 Example.limit in
example : Bom.JsonOk .v1_5 Example.bom ∧ ¬ Bom.JsonOk .v1_5
    { Example.bom with signature := some (.single ⟨.unknown "mine", "s"⟩) } :=
  ⟨Example.bom_jsonOk _, fun h => by
    have h : Stable Algorithm.display Algorithm.new (.unknown "mine") :=
      (h.signature nofun _ rfl).algorithm
    exact absurd h (by unfold Stable; decide)⟩

end Cdx.Props
