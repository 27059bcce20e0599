import Verif.Lemmas.Presentation
import Verif.Props.Run

/-!
# C105: the files for binaries are a part of the files for all targets
-/

namespace Cdx.Props

open Spec

private theorem loop_sublist {bom : Bom} {md : Metadata} {top : Component} {kinds : TargetKinds} :
    ∀ {cs : List Component} {xs ys : List (Bom × List String)},
      artifactLoop bom md top kinds .binaries cs = .ok xs → artifactLoop bom md top kinds .allCargoTargets cs = .ok ys →
        xs.Sublist ys
  | [], _, _, h, h' => by cases h; cases h'; exact .slnil
  | c :: cs, xs, ys, h, h' => by
    unfold artifactLoop at h h'
    simp only [Res.bind_ok] at h h'
    obtain ⟨k, hk, b, hb, r, hr, h⟩ := h
    obtain ⟨k', hk', b', hb', r', hr', h'⟩ := h'
    have e : k' = k := Except.ok.inj (hk'.symm.trans hk)
    subst e
    cases hb'
    cases h
    cases h'
    have ih := loop_sublist hr hr'
    cases b
    · exact ih.cons _
    · exact ih.cons_cons _

private theorem sboms_sublist {bom : Bom} {kinds : TargetKinds} {xs ys : List (Bom × List String)}
    (h : perArtifactSboms bom kinds .binaries = .ok xs) (h' : perArtifactSboms bom kinds .allCargoTargets = .ok ys) :
    xs.Sublist ys := by
  unfold perArtifactSboms at h h'
  split at h
  · exact nomatch h
  · next md hm =>
    rw [hm] at h'
    simp only at h h'
    split at h
    · exact nomatch h
    · next top ht =>
      rw [ht] at h'
      simp only at h h'
      split at h
      · exact nomatch h
      · next cs hc =>
        rw [hc] at h'
        exact loop_sublist h h'

private theorem writes_cons {debug : Bool} {s : GeneratedSbom} {b : Bom} {k : List String}
    {xs : List (Bom × List String)} {ws : List FileWrite} (h : artifactWrites debug s ((b, k) :: xs) = .ok ws) :
    ∃ c n more, (b.metadata.bind (·.component) = some c ∧ filename debug s (some c.name) k = .ok n) ∧
      artifactWrites debug s xs = .ok more ∧
      ws = fileWrite b (s.manifestPath.withFileName n) s.sbomConfig :: more := by
  unfold artifactWrites at h
  cases hm : b.metadata with
  | none => simp only [hm] at h; exact nomatch h
  | some md =>
    cases hc : md.component with
    | none => simp only [hm, Res.bind_ok] at h; obtain ⟨_, e, h⟩ := h; cases e; simp only [hc] at h; exact nomatch h
    | some c =>
      simp only [hm] at h
      change (match md.component with | some c => _ | none => _) = _ at h
      rw [hc] at h
      change (filename debug s (some c.name) k >>= fun n => artifactWrites debug s xs >>= fun more => _) = _ at h
      simp only [Res.bind_ok] at h
      obtain ⟨n, h1, more, h2, h⟩ := h
      cases h
      exact ⟨c, n, more, ⟨hc, h1⟩, h2, rfl⟩

private theorem writes_sublist {debug : Bool} {s s' : GeneratedSbom} (hm : s'.manifestPath = s.manifestPath)
    (hf : ∀ n k, filename debug s' (some n) k = filename debug s (some n) k)
    (hc : ∀ b p, fileWrite b p s'.sbomConfig = fileWrite b p s.sbomConfig) {xs ys : List (Bom × List String)}
    (h : xs.Sublist ys) : ∀ {ws ws' : List FileWrite}, artifactWrites debug s xs = .ok ws →
      artifactWrites debug s' ys = .ok ws' → ws.Sublist ws' := by
  induction h with
  | slnil =>
    intro ws ws' h h'
    cases h
    cases h'
    exact .slnil
  | cons y _ ih =>
    intro ws ws' h h'
    obtain ⟨b, k⟩ := y
    obtain ⟨_, _, more, -, hmore, rfl⟩ := writes_cons h'
    exact (ih h hmore).cons _
  | cons_cons y _ ih =>
    intro ws ws' h h'
    obtain ⟨b, k⟩ := y
    obtain ⟨c, n, more, ⟨hb, h3⟩, h4, rfl⟩ := writes_cons h
    obtain ⟨c', n', more', ⟨hb', h3'⟩, h4', rfl⟩ := writes_cons h'
    have e : c' = c := Option.some.inj (hb'.symm.trans hb)
    subst e
    rw [hf] at h3'
    have e3 : n' = n := Except.ok.inj (h3'.symm.trans h3)
    subst e3
    rw [hm, hc]
    exact (ih h4 h4').cons_cons _

private theorem files_sublist {debug : Bool} {s : GeneratedSbom} {o : Option OutputOptions} {f : Option Format}
    {v : Option SpecVersion} {ws ws' : List FileWrite}
    (h : writeToFiles debug (s.under (s.sbomConfig.shown o f (some .binaries) v)) = .ok ws)
    (h' : writeToFiles debug (s.under (s.sbomConfig.shown o f (some .allCargoTargets) v)) = .ok ws') :
    ws.Sublist ws' := by
  change (perArtifactSboms s.bom s.targetKinds .binaries >>= fun arts => artifactWrites debug _ arts) = _ at h
  change (perArtifactSboms s.bom s.targetKinds .allCargoTargets >>= fun arts => artifactWrites debug _ arts) = _ at h'
  simp only [Res.bind_ok] at h h'
  obtain ⟨xs, h1, h2⟩ := h
  obtain ⟨ys, h1', h2'⟩ := h'
  refine writes_sublist ?_ ?_ ?_ (sboms_sublist h1 h1') h2 h2'
  · rfl
  · intro n k; rfl
  · intro b p; rfl

/-- C105: with `--describe binaries` a run writes a part of the files that it writes with
`--describe all-cargo-targets`, in the same order, to the same places and with the same content. -/
theorem C105_binaries (W : World) (a : Args) {l l' : List GeneratedSbom} {ws ws' : List FileWrite}
    (h : W.generateSboms { a with describe := some .binaries } = .ok l)
    (h' : W.generateSboms { a with describe := some .allCargoTargets } = .ok l')
    (hw : allWrites W.env.debug l = .ok ws) (hw' : allWrites W.env.debug l' = .ok ws') : ws.Sublist ws' := by
  have e := generateSboms_shown (W := W) (a := a) (t := a.targetInFilename) (f := a.format) (d := some .binaries)
    (v := a.specVersion)
  have e' := generateSboms_shown (W := W) (a := a) (t := a.targetInFilename) (f := a.format)
    (d := some .allCargoTargets) (v := a.specVersion)
  have r : a.shown a.targetInFilename a.format (some .binaries) a.specVersion =
    { a with describe := some .binaries } := rfl
  have r' : a.shown a.targetInFilename a.format (some .allCargoTargets) a.specVersion =
    { a with describe := some .allCargoTargets } := rfl
  rw [r, h] at e
  rw [r', h'] at e'
  cases hg : W.generateSboms a with
  | error x => rw [hg] at e; exact nomatch e
  | ok L =>
    rw [hg] at e e'
    cases e
    cases e'
    clear h h' hg r r'
    induction L generalizing ws ws' with
    | nil => cases hw; cases hw'; exact .slnil
    | cons s L ih =>
      simp only [List.map_cons, allWrites, Res.bind_ok] at hw hw'
      obtain ⟨x, hx, y, hy, hw⟩ := hw
      obtain ⟨x', hx', y', hy', hw'⟩ := hw'
      cases hw
      cases hw'
      exact (files_sublist hx hx').append (ih hy hy')

/-! ### Non-vacuity -/

/-- The files written for the SBOMs of a run. -/
def pathsOf (debug : Bool) (r : Res (List GeneratedSbom)) : Option (List FPath) :=
  match r with
  | .ok l => match allWrites debug l with
    | .ok ws => some (ws.map (·.path))
    | .error _ => none
  | .error _ => none

/-- In the example there is one file for the binary, and one more for the library. -/
example : pathsOf exampleWorld.env.debug (exampleWorld.generateSboms { exampleArgs with describe := some .binaries }) =
      some [["w", "cli_bin.cdx.json"]] ∧
    pathsOf exampleWorld.env.debug
        (exampleWorld.generateSboms { exampleArgs with describe := some .allCargoTargets }) =
      some [["w", "root_lib.cdx.json"], ["w", "cli_bin.cdx.json"]] := by
  decide +kernel

end Cdx.Props
