import Verif.Lemmas.Unique
import Verif.Props.Documents

/-!
# Properties of the member names of written JSON
-/

namespace Cdx.Props

section
variable [F32Format] {v : SpecVersion} {b : Bom}

/-- C67: whatever the document and the version, no object in what is written as JSON has two members
of the same name. -/
theorem C67_unique_members {j : Json} (h : b.outputJson v = .ok j) : j.Unique := by
  unfold Bom.outputJson at h
  split at h
  · cases h
    exact Bom.toJson_unique v b
  · cases h

end

/-- The condition tells documents apart: a repeated name, here deep in the document, violates it. -/
example : ¬ (Json.obj [("a", .arr [.obj [("b", .null), ("c", .null), ("b", .nat 1)]])]).Unique := by
  rintro (_ | _ | _ | _ | _ | _ | _ | ⟨-, h⟩)
  have h := h ("a", _) (.head _)
  rcases h with _ | _ | _ | _ | _ | _ | h | _
  have h := h _ (.head _)
  rcases h with _ | _ | _ | _ | _ | _ | _ | ⟨h, -⟩
  exact absurd h (by decide)

attribute [local instance] Example.f32 Example.limit in
example : ∃ j, Bom.outputJson .v1_5 Example.bom = .ok j := ⟨_, rfl⟩

end Cdx.Props
