import Verif.Lemmas.Conforms.Licenses

/-!
# The small parts of components and tools conform to the JSON schema
-/

namespace Cdx

open Spec

set_option linter.unusedVariables false
set_option linter.unusedSimpArgs false
set_option maxRecDepth 8000

variable {F : Formats} {v : SpecVersion}

@[schema_fits]
theorem refOk_length {r : String} (h : RefOk .v1_5 r) : 1 ≤ r.length := by
  have h : r ≠ "" := h rfl
  rcases Nat.eq_zero_or_pos r.length with h' | h'
  · exact absurd (String.length_eq_zero_iff.mp h') h
  · exact h'

@[schema_fits]
theorem Dependency.fits {x : Dependency} (h : DependencyOk v x) : Fits F v "dependency" x.toJson := by
  obtain ⟨h1, h2, h3⟩ := h
  cases v
  · refine fits_ref (s := Schema13.dependency) rfl ?_
    schema_simp [Schema13.dependency, Dependency.toJson]
    fits_close h1
  · refine fits_ref (s := Schema14.dependency) rfl ?_
    schema_simp [Schema14.dependency, Dependency.toJson]
    fits_close h1
  · refine fits_ref (s := Schema15.dependency) rfl ?_
    schema_simp [Schema15.dependency, Dependency.toJson]
    fits_close h1

@[schema_fits]
theorem IssueClassification.named {x : IssueClassification} (h : (Elem.issueClassification x).Sound F v) :
    OneOf ["defect", "enhancement", "security"] x.display := by
  have h := (sound_issueClassification.mp h).1
  enum_close h x [IssueClassification.display]

@[schema_fits]
theorem PatchClassification.named {x : PatchClassification} (h : (Elem.patchClassification x).Sound F v) :
    OneOf ["unofficial", "monkey", "backport", "cherry-pick"] x.display := by
  have h := (sound_patchClassification.mp h).1
  enum_close h x [PatchClassification.display]

@[schema_fits]
theorem IdentifiableAction.fits {x : IdentifiableAction} (h : (Elem.identifiableAction x).Sound F v) :
    Fits F v "identifiableAction" (IdentifiableAction.toJson x) := by
  have h := sound_identifiableAction.mp h
  cases v
  · refine fits_ref (s := Schema13.identifiableAction) rfl ?_
    schema_simp [Schema13.identifiableAction, IdentifiableAction.toJson]
    fits_close h
  · refine fits_ref (s := Schema14.identifiableAction) rfl ?_
    schema_simp [Schema14.identifiableAction, IdentifiableAction.toJson]
    fits_close h
  · refine fits_ref (s := Schema15.identifiableAction) rfl ?_
    schema_simp [Schema15.identifiableAction, IdentifiableAction.toJson]
    fits_close h

@[schema_fits]
theorem Commit.fits {x : Commit} (h : (Elem.commit x).Sound F v) :
    Fits F v "commit" (Commit.toJson x) := by
  have h := sound_commit.mp h
  cases v
  · refine fits_ref (s := Schema13.commit) rfl ?_
    schema_simp [Schema13.commit, Commit.toJson]
    fits_close h
  · refine fits_ref (s := Schema14.commit) rfl ?_
    schema_simp [Schema14.commit, Commit.toJson]
    fits_close h
  · refine fits_ref (s := Schema15.commit) rfl ?_
    schema_simp [Schema15.commit, Commit.toJson]
    fits_close h

@[schema_fits]
theorem Diff.fits {x : Diff} (h : (Elem.diff x).Sound F v) :
    Fits F v "diff" (Diff.toJson x) := by
  have h := sound_diff.mp h
  cases v
  · refine fits_ref (s := Schema13.diff) rfl ?_
    schema_simp [Schema13.diff, Diff.toJson]
    fits_close h
  · refine fits_ref (s := Schema14.diff) rfl ?_
    schema_simp [Schema14.diff, Diff.toJson]
    fits_close h
  · refine fits_ref (s := Schema15.diff) rfl ?_
    schema_simp [Schema15.diff, Diff.toJson]
    fits_close h

@[schema_fits]
theorem Issue.fits {x : Issue} (h : (Elem.issue x).Sound F v) :
    Fits F v "issue" (Issue.toJson x) := by
  have h := sound_issue.mp h
  have hs : ∀ y, x.source = some y → ∀ u, y.url = some u → F "iri-reference" u := by
    intro y hy
    sound_simp at h
    have hs : (Elem.source y).Sound F v := by
      casesm* _ ∧ _
      solve_by_elim
    have hs := sound_source.mp hs
    sound_simp at hs
    casesm* _ ∧ _
    exact fun u hu => uri_of_sound (by solve_by_elim)
  cases v
  · refine fits_ref (s := Schema13.issue) rfl ?_
    schema_simp [Schema13.issue, Issue.toJson, Source.toJson]
    fits_close h
  · refine fits_ref (s := Schema14.issue) rfl ?_
    schema_simp [Schema14.issue, Issue.toJson, Source.toJson]
    fits_close h
  · refine fits_ref (s := Schema15.issue) rfl ?_
    schema_simp [Schema15.issue, Issue.toJson, Source.toJson]
    fits_close h

@[schema_fits]
theorem Patch.fits {x : Patch} (h : (Elem.patch x).Sound F v) :
    Fits F v "patch" (Patch.toJson x) := by
  have h := sound_patch.mp h
  cases v
  · refine fits_ref (s := Schema13.patch) rfl ?_
    schema_simp [Schema13.patch, Patch.toJson]
    fits_close h
  · refine fits_ref (s := Schema14.patch) rfl ?_
    schema_simp [Schema14.patch, Patch.toJson]
    fits_close h
  · refine fits_ref (s := Schema15.patch) rfl ?_
    schema_simp [Schema15.patch, Patch.toJson]
    fits_close h

@[schema_fits]
theorem Swid.fits {x : Swid} (h : (Elem.swid x).Sound F v) :
    Fits F v "swid" (Swid.toJson x) := by
  have h := sound_swid.mp h
  cases v
  · refine fits_ref (s := Schema13.swid) rfl ?_
    schema_simp [Schema13.swid, Swid.toJson]
    fits_close h
  · refine fits_ref (s := Schema14.swid) rfl ?_
    schema_simp [Schema14.swid, Swid.toJson]
    fits_close h
  · refine fits_ref (s := Schema15.swid) rfl ?_
    schema_simp [Schema15.swid, Swid.toJson]
    fits_close h

@[schema_fits]
theorem Tool.fits {x : Tool} (h : (Elem.tool x).Sound F v) :
    Fits F v "tool" (Tool.toJson v x) := by
  have h := sound_tool.mp h
  cases v
  · refine fits_ref (s := Schema13.tool) rfl ?_
    schema_simp [Schema13.tool, Tool.toJson]
    fits_close h
  · refine fits_ref (s := Schema14.tool) rfl ?_
    schema_simp [Schema14.tool, Tool.toJson]
    fits_close h
  · refine fits_ref (s := Schema15.tool) rfl ?_
    schema_simp [Schema15.tool, Tool.toJson]
    fits_close h

end Cdx
