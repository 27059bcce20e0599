import Verif.Lemmas.Main
import Verif.Props.Written
import Verif.Props.Config

/-!
# C69-C72: whole runs, with failures and interruptions
-/

namespace Cdx.Props

open Cdx.Spec

variable [F32Format] {W : World} {a : Args} {config : SbomConfig} {md : CargoMetadata}
  {nodes : List Node} {fs fs' : Files} {e : Exit}

private theorem generateSboms_ok {sboms : List GeneratedSbom} (h : W.generateSboms a = .ok sboms)
    (hacc : a.accepted = true) :
    ∃ config md, Asked W a config md ∧ createSboms W.env md config = .ok sboms := by
  unfold World.generateSboms at h
  simp only [Res.bind_ok] at h
  obtain ⟨config, h1, m, h2, md, h3, h4⟩ := h
  refine ⟨config, md, ⟨hacc, h1, m, h2, ?_⟩, h4⟩
  unfold World.getMetadata at h3
  split at h3
  · next md' h' => cases h3; exact h'
  · cases h3

private theorem generateSboms_eq (h : Asked W a config md) :
    W.generateSboms a = createSboms W.env md config := by
  obtain ⟨m, h2, h3⟩ := h.metadata
  unfold World.generateSboms World.getMetadata
  simp only [h.resolved, h2, h3, bind, Except.bind]

private theorem extension_eq (f : Format) : "." ++ f.display = extension f := by
  cases f <;> rfl

/-! ## C69 -/

/-- C69: whatever happens in a run – success, errors of any kind, or being stopped at any point – the
only files that can have changed are in the directory of the manifest of a workspace member, and their
names end in `.json` or `.xml` according to the format asked for. -/
theorem C69_only_sbom_files (h : Runs (mainProgram W a) fs fs' e) {q : FPath} (hq : fs' q ≠ fs q) :
    ∃ config md, Asked W a config md ∧ ∃ p ∈ md.packages, p.id ∈ md.workspaceMembers ∧
      ∃ stem, q = p.manifestPath.dropLast ++ [stem ++ extension (a.format.getD .xml)] := by
  have hp := runs_touches h hq
  unfold mainProgram at hp
  split at hp
  · next hacc =>
    obtain ⟨sboms, hs, hp⟩ := paths_after hp
    obtain ⟨config, md, hask, hc⟩ := generateSboms_ok hs hacc
    obtain ⟨s, hsm, stem, hstem⟩ := paths_writeAll hp
    obtain ⟨hcfg, p, hpm, hid, hman⟩ := createSboms_origin hc s hsm
    refine ⟨config, md, hask, p, hpm, hid, stem, ?_⟩
    rw [hstem, hman, hcfg, extension_eq, SbomConfig.getFormat, (resolveConfig_ok hask.resolved).1]
  · cases hp

private theorem last_four (s t : String) (h : t.toList.length = 4 ∨ t.toList.length = 5) :
    ((s ++ t).toList.reverse.take 4) = t.toList.reverse.take 4 := by
  rw [String.toList_append, List.reverse_append, List.take_append_of_le_length]
  rw [List.length_reverse]; omega

/-- C69: in particular no run touches a manifest, a lock file or a Rust source. -/
theorem C69_sources_untouched (h : Runs (mainProgram W a) fs fs' e) {dir : FPath} {n : String}
    (hn : n = "Cargo.toml" ∨ n = "Cargo.lock" ∨ ∃ m, n = m ++ ".rs") :
    fs' (dir ++ [n]) = fs (dir ++ [n]) := by
  by_cases hq : fs' (dir ++ [n]) = fs (dir ++ [n])
  · exact hq
  exfalso
  obtain ⟨_, _, _, p, _, _, stem, he⟩ := C69_only_sbom_files h hq
  have hs : n = stem ++ extension (a.format.getD .xml) := by
    have := congrArg List.getLast? he
    simpa using this
  have hl : n.toList.getLast? = some 'n' ∨ (n.toList.reverse.take 4) = ['l', 'm', 'x', '.'] := by
    rw [hs]
    cases a.format.getD .xml with
    | json => left; simp [extension, String.toList_append]
    | xml => right; exact last_four _ _ (.inl rfl)
  rcases hn with rfl | rfl | ⟨m, rfl⟩
  · revert hl; decide
  · revert hl; decide
  · rcases hl with hl | hl
    · simp [String.toList_append] at hl
    · rw [String.toList_append, List.reverse_append] at hl
      simp at hl

/-! ## C70 -/

/-- C70: if the options, the configuration, cargo or the generation of any of the SBOMs fails, then no
file at all has changed, and the run does not end with success. -/
theorem C70_failure_leaves_everything (h : Runs (mainProgram W a) fs fs' e)
    (hf : a.accepted = false ∨ ∃ err, W.generateSboms a = .error err) :
    fs' = fs ∧ e ≠ .success := by
  have : ∃ err, mainProgram W a = .exit (.error err) := by
    unfold mainProgram
    rcases hf with hf | ⟨err, hf⟩
    · exact ⟨_, by rw [hf]; rfl⟩
    · by_cases hacc : a.accepted = true
      · exact ⟨err, by rw [if_pos hacc, hf]; rfl⟩
      · exact ⟨_, by rw [if_neg hacc]⟩
  obtain ⟨err, hp⟩ := this
  rw [hp] at h
  cases h with
  | fault => exact ⟨rfl, fun e => nomatch e⟩
  | stop => exact ⟨rfl, fun e => nomatch e⟩

/-- The directories of different workspace members are different, and within a package no two
described targets have the same name and the same kinds, which are kinds that cargo knows. -/
structure DistinctOutputs (md : CargoMetadata) : Prop where
  members : md.workspaceMembers.Nodup
  directories : ∀ p ∈ md.packages, ∀ q ∈ md.packages, p.id ∈ md.workspaceMembers →
    q.id ∈ md.workspaceMembers → p.manifestPath.dropLast = q.manifestPath.dropLast → p.id = q.id
  kinds : ∀ p ∈ md.packages, ∀ t ∈ p.targets, IsDescribed t → ∀ k ∈ t.kind, k ∈ cargoKinds
  targets : ∀ p ∈ md.packages, p.targets.Pairwise fun t u =>
    IsDescribed t → IsDescribed u → (normalizedString t.name, t.kind) ≠ (normalizedString u.name, u.kind)

private theorem member_writes (hask : Asked W a config md) (hmd : MetadataOk md nodes)
    (hd : DistinctOutputs md) {sboms : List GeneratedSbom}
    (h : createSboms W.env md config = .ok sboms) {s : GeneratedSbom} {root : PackageId}
    (hs : At sboms s md.workspaceMembers root) :
    ∃ ws, writeToFiles W.env.debug s = .ok ws ∧ (ws.map (·.path)).Nodup := by
  obtain ⟨_, hdesc, _, _, hover⟩ := resolveConfig_ok hask.resolved
  by_cases hc : config.describe.getD .crate = .crate
  · obtain ⟨_, _, _, w, hw, _⟩ := C13_exact_name hmd h hs W.env.debug hc
    exact ⟨_, hw, by simp⟩
  · have hno : a.filenameOverride = none := by
      have hacc := hask.accepted
      unfold Args.accepted at hacc
      cases ho : a.filenameOverride with
      | none => rfl
      | some o =>
        rw [hdesc] at hc
        cases hdd : a.describe with
        | none => rw [hdd] at hc; exact absurd rfl hc
        | some d => rw [ho, hdd] at hacc; simp at hacc
    refine C14_distinct_files hmd h hs W.env.debug (hover hno) hc hd.kinds ?_
    intro p hp
    unfold List.Nodup
    rw [List.pairwise_map]
    have := (hd.targets p hp).filter (fun t => @decide (IsDescribed t) (Classical.propDecidable _))
    refine this.imp_of_mem ?_
    intro t u ht hu hne
    have ht := @of_decide_eq_true _ (Classical.propDecidable _) (List.mem_filter.1 ht).2
    have hu := @of_decide_eq_true _ (Classical.propDecidable _) (List.mem_filter.1 hu).2
    exact hne ht hu

/-- C70: the files of one run are all different, so that no SBOM overwrites another one. -/
theorem C70_distinct_files (hask : Asked W a config md) (hmd : MetadataOk md nodes)
    (hd : DistinctOutputs md) {sboms : List GeneratedSbom} (h : W.generateSboms a = .ok sboms) :
    ∃ ws, allWrites W.env.debug sboms = .ok ws ∧ (ws.map (·.path)).Nodup := by
  rw [generateSboms_eq hask] at h
  have hlen := (C22_one_per_member hmd h).1
  have hall : ∀ s ∈ sboms, ∃ ws, writeToFiles W.env.debug s = .ok ws ∧ (ws.map (·.path)).Nodup ∧
      ∀ w ∈ ws, w.path.dropLast = s.manifestPath.dropLast := by
    intro s hs
    obtain ⟨j, hj⟩ := List.mem_iff_getElem?.1 hs
    have hj' : j < md.workspaceMembers.length := by
      rw [← hlen]; exact (List.getElem?_eq_some_iff.1 hj).1
    have hat : At sboms s md.workspaceMembers md.workspaceMembers[j] :=
      ⟨j, hj, List.getElem?_eq_getElem hj'⟩
    obtain ⟨ws, h1, h2⟩ := member_writes hask hmd hd h hat
    obtain ⟨p, hp, hpid, ws', h1', h3⟩ := C13_directory_and_extension hmd h hat W.env.debug
    obtain ⟨_, _, p', hp', hpid', _, hman⟩ := (C22_one_per_member hmd h).2 s _ hat
    rw [h1] at h1'; cases h1'
    refine ⟨ws, h1, h2, ?_⟩
    intro w hw
    obtain ⟨_, _, stem, e⟩ := h3 w hw
    have : p = p' := by
      have a1 := (lookup_indexPackages hmd.packagesNodup).2 ⟨hp, hpid⟩
      have a2 := (lookup_indexPackages hmd.packagesNodup).2 ⟨hp', hpid'⟩
      rw [a1] at a2; exact Option.some.inj a2
    rw [e, hman, this]; simp
  have hdir : sboms.Pairwise fun s t => s.manifestPath.dropLast ≠ t.manifestPath.dropLast := by
    rw [List.pairwise_iff_getElem]
    intro i j hi hj hij he
    have hi' : i < md.workspaceMembers.length := by rw [← hlen]; exact hi
    have hj' : j < md.workspaceMembers.length := by rw [← hlen]; exact hj
    obtain ⟨_, _, p, hp, hpid, _, hman⟩ := (C22_one_per_member hmd h).2 _ _
      ⟨i, List.getElem?_eq_getElem hi, List.getElem?_eq_getElem hi'⟩
    obtain ⟨_, _, p', hp', hpid', _, hman'⟩ := (C22_one_per_member hmd h).2 _ _
      ⟨j, List.getElem?_eq_getElem hj, List.getElem?_eq_getElem hj'⟩
    rw [hman, hman'] at he
    have := hd.directories p hp p' hp' (by rw [hpid]; exact List.getElem_mem _)
      (by rw [hpid']; exact List.getElem_mem _) he
    rw [hpid, hpid'] at this
    exact Nat.ne_of_lt hij ((List.getElem_inj hd.members).1 this)
  clear hlen h
  induction sboms with
  | nil => exact ⟨[], rfl, List.nodup_nil⟩
  | cons s ss ih =>
    obtain ⟨hs, hss⟩ := List.pairwise_cons.1 hdir
    obtain ⟨rest, h1, h2⟩ := ih (fun s hs => hall s (List.mem_cons_of_mem _ hs)) hss
    obtain ⟨ws, h3, h4, h5⟩ := hall s List.mem_cons_self
    refine ⟨ws ++ rest, by simp [allWrites, h1, h3, bind, Except.bind], ?_⟩
    rw [List.map_append, List.nodup_append]
    refine ⟨h4, h2, ?_⟩
    rintro x hx y hy rfl
    obtain ⟨w, hw, rfl⟩ := List.mem_map.1 hx
    obtain ⟨v, hv, e⟩ := List.mem_map.1 hy
    obtain ⟨t, ht, vs, hvs, hv⟩ := (allWrites_mem h1).1 hv
    obtain ⟨vs', hvs', _, h6⟩ := hall t (List.mem_cons_of_mem _ ht)
    rw [hvs] at hvs'; cases hvs'
    exact hs t ht (by rw [← h5 w hw, ← h6 v hv, e])

variable [ReadLimit]

/-- The checks of a debug build change nothing that is written. -/
private theorem checked (hl : 2 ≤ ReadLimit.limit) (hmd : MetadataOk md nodes) (hdbg : W.env.debug = true → DebugOk W md nodes)
    {sboms : List GeneratedSbom} {s : GeneratedSbom} {m : PackageId} {b : Bool} {ws : List FileWrite}
    (h : createSboms W.env md config = .ok sboms) (hat : At sboms s md.workspaceMembers m)
    (hw : writeToFiles b s = .ok ws) :
    ∀ w ∈ ws, writeFile W.venv W.env.debug w = writeFile W.venv false w := by
  intro w hwm
  cases hd : W.env.debug with
  | false => rfl
  | true =>
    have ok := hdbg hd
    have hm : m ∈ md.workspaceMembers := by
      obtain ⟨i, _, hi⟩ := hat
      exact List.mem_of_getElem? hi
    exact ((C64_debug_exact hl hmd ok.agree ok.renders h hat (ok.ids m hm) hw w hwm).1).2
      fun p hp => ok.links p hp.1

private theorem planned (hl : 2 ≤ ReadLimit.limit) (hask : Asked W a config md)
    (hmd : MetadataOk md nodes) (hd : DistinctOutputs md) (hdbg : W.env.debug = true → DebugOk W md nodes)
    {sboms : List GeneratedSbom} (h : W.generateSboms a = .ok sboms) :
    ∃ ws plan, allWrites W.env.debug sboms = .ok ws ∧ PlanOf W ws plan ∧ (plan.map (·.1)).Nodup ∧
      mainProgram W a = planProgram plan (.exit (.ok ())) := by
  obtain ⟨ws, h1, h2⟩ := C70_distinct_files hask hmd hd h
  have h' := h
  rw [generateSboms_eq hask] at h'
  have hlen := (C22_one_per_member hmd h').1
  obtain ⟨plan, hp⟩ : ∃ plan, PlanOf W ws plan := by
    refine PlanOf.exists ?_
    intro w hw
    obtain ⟨s, hs, vs, hvs, hw⟩ := (allWrites_mem h1).1 hw
    obtain ⟨j, hj⟩ := List.mem_iff_getElem?.1 hs
    have hj' : j < md.workspaceMembers.length := by
      rw [← hlen]; exact (List.getElem?_eq_some_iff.1 hj).1
    have hat : At sboms s md.workspaceMembers md.workspaceMembers[j] :=
      ⟨j, hj, List.getElem?_eq_getElem hj'⟩
    rw [checked hl hmd hdbg h' hat hvs w hw]
    exact C64_release_writes hl hmd h' hat hvs w hw
  refine ⟨ws, plan, h1, hp, by rw [hp.paths]; exact h2, ?_⟩
  unfold mainProgram
  rw [if_pos hask.accepted, h]
  exact writeAll_plan h1 hp

/-- C70: at whatever point a run fails or is stopped, there is a number `k` such
that the first `k` documents are completely written, the next file is untouched or damaged, and
nothing else has changed; a run that reports success has written all documents. -/
theorem C70_progress (hl : 2 ≤ ReadLimit.limit) (hask : Asked W a config md)
    (hmd : MetadataOk md nodes) (hd : DistinctOutputs md) (hdbg : W.env.debug = true → DebugOk W md nodes)
    {sboms : List GeneratedSbom} (hg : W.generateSboms a = .ok sboms)
    (h : Runs (mainProgram W a) fs fs' e) :
    ∃ ws plan, allWrites W.env.debug sboms = .ok ws ∧ PlanOf W ws plan ∧
      ∃ k, Progress plan fs fs' k ∧ (e = .success → k = plan.length) := by
  obtain ⟨ws, plan, h1, h2, h3, h4⟩ := planned hl hask hmd hd hdbg hg
  rw [h4] at h
  exact ⟨ws, plan, h1, h2, runs_plan_progress h3 h⟩

/-! ## C71 -/

/-- C71: with consistent metadata, a working clock and a valid `SOURCE_DATE_EPOCH` if one is set, a run
fails only because of the file system or because it is stopped: it does not panic, and no SBOM is
refused. For a debug build, which checks more, see `DebugOk`. And unless one of these happens, it succeeds. -/
theorem C71_runs_through (hl : 2 ≤ ReadLimit.limit) (hask : Asked W a config md)
    (hmd : MetadataOk md nodes) (hd : DistinctOutputs md) (hdbg : W.env.debug = true → DebugOk W md nodes)
    (hman : ∀ p ∈ md.packages, p.manifestPath ≠ []) (hnow : W.env.now ≠ none)
    (hepoch : ∀ e, W.env.sourceDateEpoch = some e →
      ∃ t d, parseI64 e = some t ∧ W.env.formatUnix t = some d ∧ W.env.dateTimeValid d = true) :
    (∀ fs fs' err, ¬ Runs (mainProgram W a) fs fs' (.fault err)) ∧
    (∀ fs, ∃ fs', Runs (mainProgram W a) fs fs' .success) := by
  obtain ⟨sboms, hg⟩ := C22_no_panic (env := W.env) (config := config) hmd hman
    (fun h => ⟨(hdbg h).inside, (hdbg h).renders.purl⟩) hnow hepoch (resolveConfig_ok hask.resolved).2.2.2.1
  rw [← generateSboms_eq hask] at hg
  obtain ⟨ws, plan, h1, h2, h3, h4⟩ := planned hl hask hmd hd hdbg hg
  rw [h4]
  exact ⟨fun _ _ _ h => runs_plan_no_fault h, fun fs => ⟨_, runs_plan_exists plan fs⟩⟩

/-- C71: after a successful run with the options for JSON that describes crates, the directory of every
workspace member has a file with a complete document, and the library reads it as a BOM in the version
asked for, about that member, with nothing lost: it is the BOM that was generated. -/
theorem C71_json_complete (hl : 2 ≤ ReadLimit.limit) (hask : Asked W a config md)
    (hmd : MetadataOk md nodes) (hd : DistinctOutputs md) (hdbg : W.env.debug = true → DebugOk W md nodes)
    (hjson : a.format = some .json) (hcrate : a.describe = none)
    (h : Runs (mainProgram W a) fs fs' .success) :
    ∀ m ∈ md.workspaceMembers, ∃ p ∈ md.packages, p.id = m ∧ ∃ n j b,
      fs' (p.manifestPath.dropLast ++ [n ++ ".json"]) = some (.whole (.json j)) ∧
      Bom.parseJson j = .ok b ∧ b.specVersion = a.specVersion.getD .v1_3 ∧ topRef b = some m ∧
      ∃ sboms s, W.generateSboms a = .ok sboms ∧ At sboms s md.workspaceMembers m ∧
        b = { s.bom with specVersion := b.specVersion } := by
  intro m hm
  obtain ⟨hcf, hcd, hcv, _, _⟩ := resolveConfig_ok hask.resolved
  cases hg : W.generateSboms a with
  | error err =>
    exact absurd rfl (C70_failure_leaves_everything h (.inr ⟨err, hg⟩)).2
  | ok sboms =>
    obtain ⟨ws, plan, h1, h2, h3, h4⟩ := planned hl hask hmd hd hdbg hg
    have hc := hg
    rw [generateSboms_eq hask] at hc
    have hlen := (C22_one_per_member hmd hc).1
    obtain ⟨i, hi⟩ := List.mem_iff_getElem?.1 hm
    have hi' : i < sboms.length := by rw [hlen]; exact (List.getElem?_eq_some_iff.1 hi).1
    have hat : At sboms sboms[i] md.workspaceMembers m := ⟨i, List.getElem?_eq_getElem hi', hi⟩
    obtain ⟨p, hp, hpid, ws', hw', hform⟩ := C13_directory_and_extension hmd hc hat W.env.debug
    obtain ⟨_, _, _, w, hw, hwb, _⟩ := C13_exact_name hmd hc hat W.env.debug
      (by rw [hcd, hcrate]; rfl)
    rw [hw] at hw'; cases hw'
    obtain ⟨hf, hv, stem, hpath⟩ := hform w List.mem_cons_self
    have hjs : w.format = .json := by rw [hf, hcf, hjson]; rfl
    obtain ⟨j, g1, g2, g3⟩ := C59_json (E := W.venv) hl hmd hc hat hw w List.mem_cons_self hjs
    obtain ⟨c, hcw, hcp⟩ := h2.mem ((allWrites_mem h1).2 ⟨_, List.getElem_mem hi', _, hw,
      List.mem_cons_self⟩)
    rw [checked hl hmd hdbg hc hat hw w List.mem_cons_self, g1] at hcw; cases hcw
    rw [h4] at h
    rw [runs_plan_success h]
    refine ⟨p, hp, hpid, stem, j, _, ?_, g2, ?_, ?_, sboms, _, rfl, hat, ?_⟩
    · have hext : extension (config.format.getD .xml) = ".json" := by rw [hcf, hjson]; rfl
      rw [hext] at hpath
      rw [← hpath]
      exact afterPlan_done h3 hcp
    · rw [← hcv]; exact hv
    · have := ((C22_one_per_member hmd hc).2 _ _ hat).1
      rw [hwb]
      exact this
    · rw [hwb]

/-- The files of a successful run. -/
private theorem filesOf (hl : 2 ≤ ReadLimit.limit) (hask : Asked W a config md)
    (hmd : MetadataOk md nodes) (hd : DistinctOutputs md)
    (hdbg : W.env.debug = true → DebugOk W md nodes) (h : Runs (mainProgram W a) fs fs' .success) :
    ∃ sboms, W.generateSboms a = .ok sboms ∧ createSboms W.env md config = .ok sboms ∧
      ∀ m ∈ md.workspaceMembers, ∃ s ws, At sboms s md.workspaceMembers m ∧
        writeToFiles W.env.debug s = .ok ws ∧
        ∀ w ∈ ws, w.format = a.format.getD .xml ∧ w.specVersion = a.specVersion.getD .v1_3 ∧
          ∃ c, writeFile W.venv false w = .ok c ∧ fs' w.path = some (.whole c) := by
  obtain ⟨hcf, hcd, hcv, _, _⟩ := resolveConfig_ok hask.resolved
  cases hg : W.generateSboms a with
  | error err =>
    exact absurd rfl (C70_failure_leaves_everything h (.inr ⟨err, hg⟩)).2
  | ok sboms =>
    obtain ⟨ws, plan, h1, h2, h3, h4⟩ := planned hl hask hmd hd hdbg hg
    have hc := hg
    rw [generateSboms_eq hask] at hc
    have hlen := (C22_one_per_member hmd hc).1
    refine ⟨sboms, rfl, hc, ?_⟩
    intro m hm
    obtain ⟨i, hi⟩ := List.mem_iff_getElem?.1 hm
    have hi' : i < sboms.length := by rw [hlen]; exact (List.getElem?_eq_some_iff.1 hi).1
    have hat : At sboms sboms[i] md.workspaceMembers m := ⟨i, List.getElem?_eq_getElem hi', hi⟩
    obtain ⟨p, hp, hpid, ws', hw', hform⟩ := C13_directory_and_extension hmd hc hat W.env.debug
    refine ⟨_, ws', hat, hw', ?_⟩
    intro w hwm
    obtain ⟨hf, hv, _⟩ := hform w hwm
    obtain ⟨c, hcw, hcp⟩ := h2.mem ((allWrites_mem h1).2 ⟨_, List.getElem_mem hi', _, hw', hwm⟩)
    rw [checked hl hmd hdbg hc hat hw' w hwm] at hcw
    refine ⟨by rw [hf, hcf], by rw [hv, hcv], c, hcw, ?_⟩
    rw [h4] at h
    rw [runs_plan_success h]
    exact afterPlan_done h3 hcp

/-- C71: after a successful run with the options for JSON, every file that the run writes, whether it
describes a crate or one of its artifacts (which these are is said in C13 and C15), holds a complete
document, and the library reads it as the SBOM it was written from. -/
theorem C71_json_files (hl : 2 ≤ ReadLimit.limit) (hask : Asked W a config md)
    (hmd : MetadataOk md nodes) (hd : DistinctOutputs md)
    (hdbg : W.env.debug = true → DebugOk W md nodes) (hjson : a.format = some .json)
    (h : Runs (mainProgram W a) fs fs' .success) :
    ∃ sboms, W.generateSboms a = .ok sboms ∧
      ∀ m ∈ md.workspaceMembers, ∃ s ws, At sboms s md.workspaceMembers m ∧
        writeToFiles W.env.debug s = .ok ws ∧
        ∀ w ∈ ws, ∃ j, fs' w.path = some (.whole (.json j)) ∧
          Bom.parseJson j = .ok { w.bom with specVersion := a.specVersion.getD .v1_3 } := by
  obtain ⟨sboms, hg, hc, key⟩ := filesOf hl hask hmd hd hdbg h
  refine ⟨sboms, hg, fun m hm => ?_⟩
  obtain ⟨s, ws, hat, hw, hall⟩ := key m hm
  refine ⟨s, ws, hat, hw, fun w hwm => ?_⟩
  obtain ⟨hf, hv, c, hcw, hfs⟩ := hall w hwm
  obtain ⟨j, g1, g2, g3⟩ := C59_json (E := W.venv) hl hmd hc hat hw w hwm (by rw [hf, hjson]; rfl)
  rw [g1] at hcw; cases hcw
  exact ⟨j, hfs, by rw [← hv]; exact g2⟩

/-- C63 (partial), for a whole run: the same for XML, which is the default, if the texts of the packages have no outer
white space and license expressions and license files are not empty. Missing: packages with such texts,
for which this is false (`C63_empty_license_file`, `C63_description_changed`). -/
theorem C63_run_partial (hl : 2 ≤ ReadLimit.limit) (hask : Asked W a config md)
    (hmd : MetadataOk md nodes) (hd : DistinctOutputs md)
    (hdbg : W.env.debug = true → DebugOk W md nodes) (hxml : a.format.getD .xml = .xml)
    (rt : RendersTrimmed W.env) (hp : ∀ p ∈ md.packages, TidyPackage W.env p)
    (ht : ∀ t, config.target = some (.singleTarget t) → NoOuterSpace t)
    (h : Runs (mainProgram W a) fs fs' .success) :
    ∃ sboms, W.generateSboms a = .ok sboms ∧
      ∀ m ∈ md.workspaceMembers, ∃ s ws, At sboms s md.workspaceMembers m ∧
        writeToFiles W.env.debug s = .ok ws ∧
        ∀ w ∈ ws, ∃ ns l, fs' w.path = some (.whole (.xml ns l)) ∧
          Bom.parseXmlWith (a.specVersion.getD .v1_3) (document ns l) =
            .ok { w.bom with specVersion := a.specVersion.getD .v1_3 } := by
  obtain ⟨sboms, hg, hc, key⟩ := filesOf hl hask hmd hd hdbg h
  refine ⟨sboms, hg, fun m hm => ?_⟩
  obtain ⟨s, ws, hat, hw, hall⟩ := key m hm
  refine ⟨s, ws, hat, hw, fun w hwm => ?_⟩
  obtain ⟨hf, hv, c, hcw, hfs⟩ := hall w hwm
  obtain ⟨ns, l, g1, g2⟩ := C63_xml_partial (E := W.venv) hl hmd rt hp ht hc hat hw w hwm
    (by rw [hf, hxml])
  rw [g1] at hcw; cases hcw
  exact ⟨ns, l, hfs, by rw [← hv]; exact g2⟩

/-! ## C72 -/

omit [ReadLimit] in
private theorem sameProgram {W' : World} {env' : Env} (hW : W' = { W with env := env' })
    (hs : SameButClockAndRandom W.env env') (he : W.env.sourceDateEpoch ≠ none)
    (hn : W.env.now ≠ none) (hn' : env'.now ≠ none) : mainProgram W' a = mainProgram W a := by
  subst hW
  have hdebug : env'.debug = W.env.debug := by obtain ⟨_, _, rfl⟩ := hs; rfl
  have hgen : World.generateSboms { W with env := env' } a = W.generateSboms a := by
    unfold World.generateSboms
    have : ∀ md config, createSboms env' md config = createSboms W.env md config :=
      fun md config => C10_reproducible hs he hn hn'
    simp only [this]
    rfl
  have hfile : ∀ w next, writeToFileProgram { W with env := env' } w next =
      writeToFileProgram W w next := by
    intro w next; unfold writeToFileProgram; rw [hdebug]
  have hart : ∀ s m top d next cs, artifactsProgram { W with env := env' } s m top d next cs =
      artifactsProgram W s m top d next cs := by
    intro s m top d next cs
    induction cs with
    | nil => rfl
    | cons c cs ih =>
      unfold artifactsProgram
      simp only [hfile, ih, hdebug]
  have hfiles : ∀ s next, writeToFilesProgram { W with env := env' } s next =
      writeToFilesProgram W s next := by
    intro s next; unfold writeToFilesProgram; simp only [hfile, hart, hdebug]
  have hall : ∀ ss, writeAllProgram { W with env := env' } ss = writeAllProgram W ss := by
    intro ss
    induction ss with
    | nil => rfl
    | cons s ss ih => rw [writeAllProgram, writeAllProgram, hfiles, ih]
  unfold mainProgram
  rw [hgen]
  congr 1
  congr 1
  exact funext hall

omit [ReadLimit] in
/-- C72: with `SOURCE_DATE_EPOCH` set, running again after an interrupted or failed run gives the files
that an undisturbed run would have given, whatever the clock and the random source say: a run leaves
nothing behind that a later run does not repair. -/
theorem C72_rerun_repairs {W' : World} {env' : Env} {fs₁ fs₂ fs₃ : Files}
    (hW : W' = { W with env := env' }) (hs : SameButClockAndRandom W.env env')
    (he : W.env.sourceDateEpoch ≠ none) (hn : W.env.now ≠ none) (hn' : env'.now ≠ none)
    (h1 : Runs (mainProgram W a) fs fs₁ e) (h2 : Runs (mainProgram W' a) fs₁ fs₂ .success)
    (h3 : Runs (mainProgram W a) fs fs₃ .success) : fs₂ = fs₃ := by
  rw [sameProgram hW hs he hn hn'] at h2
  rw [runs_success h2, runs_success h3]
  refine effect_repairs ?_
  intro q hq
  by_cases h : fs₁ q = fs q
  · exact h
  · exact absurd (runs_touches h1 h) hq

omit [ReadLimit] in
/-- C72: and running again after a successful run changes nothing. -/
theorem C72_rerun_idempotent {W' : World} {env' : Env} {fs₁ fs₂ : Files}
    (hW : W' = { W with env := env' }) (hs : SameButClockAndRandom W.env env')
    (he : W.env.sourceDateEpoch ≠ none) (hn : W.env.now ≠ none) (hn' : env'.now ≠ none)
    (h1 : Runs (mainProgram W a) fs fs₁ .success) (h2 : Runs (mainProgram W' a) fs₁ fs₂ .success) :
    fs₂ = fs₁ :=
  C72_rerun_repairs hW hs he hn hn' h1 h2 h1

/-! ## C52: the platform of the run -/

omit [ReadLimit] [F32Format] in
private theorem findHost_found {pre : List String} {t : String} {rest : List (Option String)}
    (h : ∀ l ∈ pre, ¬ "host: ".toList <+: l.toList) :
    findHost (pre.map some ++ some ("host: " ++ t) :: rest) = .ok t := by
  induction pre with
  | nil =>
    rw [List.map_nil, List.nil_append, findHost, if_pos]
    · rw [String.toList_append]
      exact congrArg Except.ok (String.ofList_toList)
    · rw [List.isPrefixOf_iff_prefix, String.toList_append]
      exact List.prefix_append _ _
  | cons l pre ih =>
    rw [List.map_cons, List.cons_append, findHost, if_neg]
    · exact ih fun l hl => h l (List.mem_cons_of_mem _ hl)
    · rw [List.isPrefixOf_iff_prefix]
      exact h l List.mem_cons_self

omit [ReadLimit] [F32Format] in
/-- C52: if neither the command line nor the environment selects a platform, then cargo is asked for
the dependencies of the platform that `rustc -vV` reports, and the SBOMs are generated for it. -/
theorem C52_host_platform {pre : List String} {t : String} {rest : List (Option String)}
    (hr : W.rustc = some (pre.map some ++ some ("host: " ++ t) :: rest))
    (hpre : ∀ l ∈ pre, ¬ "host: ".toList <+: l.toList)
    (ha : a.target = none) (hb : W.buildTarget = none) (hc : W.resolveConfig a = .ok config) :
    config.target = some (.singleTarget t) ∧
      (metadataCommand a config).otherOptions = ["--filter-platform", t] := by
  have key : config.target = some (.singleTarget t) := by
    unfold World.resolveConfig at hc
    cases hcli : a.asConfig with
    | error e => rw [hcli] at hc; cases hc
    | ok cli =>
      rw [hcli] at hc
      have ht : cli.target = none := by
        unfold Args.asConfig at hcli
        cases hf : a.filenamePattern with
        | error e => rw [hf] at hcli; cases hcli
        | ok f => rw [hf] at hcli; cases hcli; simp [Args.configWith, ha]
      have hm : (cli.merge (SbomConfig.fromEnv W.buildTarget)).target = none := by
        simp [SbomConfig.merge, SbomConfig.fromEnv, hb, ht]
      simp only [hm, Option.isNone_none, if_true, World.hostPlatform, hr, findHost_found hpre,
        bind, Except.bind] at hc
      cases hc
      rfl
  exact ⟨key, by simp [metadataCommand, key]⟩

/-! ## An example -/

/-- A workspace with two members. -/
def twoMembers : CargoMetadata := { Example.md with workspaceMembers := ["root", "z"] }

/-- A world with that workspace, seen by a release build with `SOURCE_DATE_EPOCH`. -/
def exampleWorld : World where
  buildTarget := none
  rustc := some [some "rustc 1.80.0", some "host: x86_64-unknown-linux-gnu", none]
  absolute := fun _ => none
  currentDir := some ["w"]
  cargo := fun m c =>
    if m = ["w", "Cargo.toml"] ∧ c.otherOptions = ["--filter-platform", "x86_64-unknown-linux-gnu"]
    then .ok twoMembers else .error "no"
  env := { Example.env with debug := false, sourceDateEpoch := some "0" }
  venv := ⟨fun _ => true, fun _ => true, fun _ => none, fun _ => true, fun _ => true⟩

/-- The options `--format json`. -/
def exampleArgs : Args := { format := some .json }

/-- The configuration of the example. -/
def exampleConfig : SbomConfig :=
  { format := some .json, outputOptions := some {}, licenseParser := some {},
    target := some (.singleTarget "x86_64-unknown-linux-gnu"), onlyNormalDeps := some false }

theorem example_asked : Asked exampleWorld exampleArgs exampleConfig twoMembers :=
  ⟨rfl, by decide +kernel, ["w", "Cargo.toml"], rfl, rfl⟩

theorem example_metadataOk : MetadataOk twoMembers Example.nodes :=
  ⟨rfl, Example.md_ok.graph, Example.md_ok.packagesNodup, Example.md_ok.packages, by decide⟩

theorem example_distinct : DistinctOutputs twoMembers := by
  refine ⟨by decide, by decide, ?_, ?_⟩
  · intro p hp t ht hd k hk
    have : ∀ p ∈ twoMembers.packages, ∀ t ∈ p.targets,
        t.kind = ["test"] ∨ ∀ k ∈ t.kind, k ∈ cargoKinds := by decide
    rcases this p hp t ht with h | h
    · exact absurd (by rw [h]; exact List.mem_cons_self) hd.1.2.2.1
    · exact h k hk
  · intro p hp
    have : p.targets.Pairwise fun t u =>
        (normalizedString t.name, t.kind) ≠ (normalizedString u.name, u.kind) := by
      revert p; decide +kernel
    exact this.imp fun h _ _ => h

/-- Non-vacuity: the example meets the hypotheses of C70 and C71, and two files are written. -/
example : Asked exampleWorld exampleArgs exampleConfig twoMembers ∧
    MetadataOk twoMembers Example.nodes ∧ DistinctOutputs twoMembers ∧
    exampleWorld.env.debug = false ∧ (∀ p ∈ twoMembers.packages, p.manifestPath ≠ []) ∧
    exampleWorld.env.now ≠ none ∧
    (∀ e, exampleWorld.env.sourceDateEpoch = some e → ∃ t d, parseI64 e = some t ∧
      exampleWorld.env.formatUnix t = some d ∧ exampleWorld.env.dateTimeValid d = true) ∧
    ∃ sboms ws, exampleWorld.generateSboms exampleArgs = .ok sboms ∧ sboms.length = 2 ∧
      allWrites false sboms = .ok ws ∧
      ws.map (·.path) = [["w", "root.cdx.json"], ["home", ".cargo", "z", "z.cdx.json"]] := by
  refine ⟨example_asked, example_metadataOk, example_distinct, rfl, by decide, by decide, ?_,
    _, _, rfl, rfl, rfl, by decide +kernel⟩
  intro e he
  cases he
  exact ⟨0, _, by decide +kernel, rfl, by decide +kernel⟩

/-- Non-vacuity: a run of the example that is stopped while it writes the second file. -/
example [F32Format] [ReadLimit] (hl : 2 ≤ ReadLimit.limit) (fs : Files) : ∃ fs' c,
    Runs (mainProgram exampleWorld exampleArgs) fs fs' .stopped ∧
    fs' ["w", "root.cdx.json"] = some (.whole c) ∧
    fs' ["home", ".cargo", "z", "z.cdx.json"] = some .torn := by
  obtain ⟨sboms, hg, ws, h1, hp⟩ : ∃ sboms, exampleWorld.generateSboms exampleArgs = .ok sboms ∧
      ∃ ws, allWrites false sboms = .ok ws ∧
        ws.map (·.path) = [["w", "root.cdx.json"], ["home", ".cargo", "z", "z.cdx.json"]] :=
    ⟨_, rfl, _, rfl, by decide +kernel⟩
  obtain ⟨ws', plan, h1', h2, _, h4⟩ := planned hl example_asked example_metadataOk example_distinct
    nofun hg
  rw [show exampleWorld.env.debug = false from rfl, h1] at h1'
  cases h1'
  have hpp := h2.paths
  rw [hp] at hpp
  match plan, hpp with
  | [(p, c), (q, d)], hpp =>
    simp only [List.map_cons, List.map_nil, List.cons.injEq, and_true] at hpp
    obtain ⟨rfl, rfl⟩ := hpp
    rw [h4]
    refine ⟨_, c, .create (.fill (.create (.fillStop _ _ _ _))), ?_, ?_⟩
    · simp [Files.set]
    · simp [Files.set]

/-- A world with one workspace member, seen by a debug build. -/
def debugWorld : World :=
  { exampleWorld with
    cargo := fun m _ => if m = ["w", "Cargo.toml"] then .ok Example.md else .error "no"
    env := Example.env, venv := exampleEnv }

/-- The options `--describe all-cargo-targets`. -/
def debugArgs : Args := { describe := some .allCargoTargets }

/-- Non-vacuity: a debug build that describes all targets, for the hypotheses of C70 and C71. -/
example : Asked debugWorld debugArgs
      { exampleConfig with format := none, describe := some .allCargoTargets } Example.md ∧
    MetadataOk Example.md Example.nodes ∧ DebugOk debugWorld Example.md Example.nodes ∧
    debugWorld.env.debug = true ∧
    ∃ sboms ws, debugWorld.generateSboms debugArgs = .ok sboms ∧ allWrites true sboms = .ok ws ∧
      ws.map (·.path) = [["w", "root_lib.cdx.xml"], ["w", "cli_bin.cdx.xml"]] := by
  refine ⟨⟨rfl, by decide +kernel, ["w", "Cargo.toml"], rfl, rfl⟩, Example.md_ok, ?_, rfl,
    _, _, rfl, rfl, by decide +kernel⟩
  refine ⟨⟨fun _ => rfl, fun _ => rfl, fun _ => rfl, fun _ => ⟨fun _ => rfl, fun _ => rfl⟩⟩,
    ⟨fun _ _ _ _ _ _ => rfl, fun d h => by cases h; decide⟩, ?_, ?_, by decide⟩
  · intro p hp u hu _ hr
    have hd : ∀ p ∈ Example.md.packages, ∀ o ∈ urlFields p, ∀ u ∈ o.toList,
        startsWith u "urn:cdx" = false := by decide
    exact absurd (startsWith_iff.2 hr) (by rw [hd p hp _ hu u (by simp)]; decide)
  · intro m hm n hn j e
    have hm : m = "root" := by simpa [Example.md] using hm
    subst hm
    have h : ∀ n ∈ Example.nodes, n.id.toList.length < 5 := by decide
    have h1 := h n hn
    have h2 := congrArg (fun x => x.toList.length) e
    simp only [String.toList_append, List.length_append] at h2
    have h3 : "root".toList.length = 4 ∧ " bin-target-".toList.length = 12 := by decide
    omega

end Cdx.Props
