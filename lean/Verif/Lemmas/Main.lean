import Verif.Lemmas.Files
import Verif.Lemmas.Generator
import Verif.Spec.Run

set_option linter.unusedSectionVars false
set_option linter.unusedSimpArgs false

namespace Cdx
open Cdx.Spec

/-- The program that writes the documents of a plan in order. -/
def planProgram : List (FPath × FileContent) → Program → Program
  | [], next => next
  | (p, c) :: rest, next => .create p (.fill p c (planProgram rest next))

theorem planProgram_append (l m : List (FPath × FileContent)) (next : Program) :
    planProgram (l ++ m) next = planProgram l (planProgram m next) := by
  induction l with
  | nil => rfl
  | cons x l ih => obtain ⟨p, c⟩ := x; simp only [List.cons_append, planProgram, ih]

/-! ## Running a plan -/

theorem Files.set_same (fs : Files) (p : FPath) (x : FileState) : fs.set p x p = some x := by
  simp [Files.set]

theorem Files.set_other {fs : Files} {p q : FPath} {x : FileState} (h : q ≠ p) :
    fs.set p x q = fs q := by
  simp [Files.set, h]

/-- The files after a plan. -/
def afterPlan : List (FPath × FileContent) → Files → Files
  | [], fs => fs
  | (p, c) :: rest, fs => afterPlan rest (fs.set p (.whole c))

theorem Files.set_set (fs : Files) (p : FPath) (x y : FileState) :
    (fs.set p x).set p y = fs.set p y := by
  funext q
  unfold Files.set
  split <;> rfl

theorem afterPlan_other {plan : List (FPath × FileContent)} {fs : Files} {q : FPath}
    (h : ∀ c, (q, c) ∉ plan) : afterPlan plan fs q = fs q := by
  induction plan generalizing fs with
  | nil => rfl
  | cons x plan ih =>
    obtain ⟨p, c⟩ := x
    have hq : q ≠ p := fun e => h c (by subst e; exact List.mem_cons_self)
    rw [afterPlan, ih (fun c hc => h c (List.mem_cons_of_mem _ hc)), Files.set_other hq]

/-- What a plan leaves at a path that it writes does not depend on what was there. -/
theorem afterPlan_mem {plan : List (FPath × FileContent)} {fs gs : Files} {q : FPath}
    (h : ∃ c, (q, c) ∈ plan) : afterPlan plan fs q = afterPlan plan gs q := by
  induction plan generalizing fs gs with
  | nil => obtain ⟨c, h⟩ := h; cases h
  | cons x plan ih =>
    obtain ⟨p, c⟩ := x
    rw [afterPlan, afterPlan]
    by_cases h' : ∃ c, (q, c) ∈ plan
    · exact ih h'
    · have h'' : ∀ c, (q, c) ∉ plan := fun c hc => h' ⟨c, hc⟩
      rw [afterPlan_other h'', afterPlan_other h'']
      obtain ⟨d, hd⟩ := h
      rcases List.mem_cons.1 hd with e | e
      · cases e; rw [Files.set_same, Files.set_same]
      · exact absurd e (h'' d)

theorem afterPlan_twice (plan : List (FPath × FileContent)) (fs : Files) :
    afterPlan plan (afterPlan plan fs) = afterPlan plan fs := by
  funext q
  by_cases h : ∃ c, (q, c) ∈ plan
  · exact afterPlan_mem h
  · exact afterPlan_other fun c hc => h ⟨c, hc⟩

theorem afterPlan_done {plan : List (FPath × FileContent)} {fs : Files}
    (hn : (plan.map (·.1)).Nodup) {p : FPath} {c : FileContent} (h : (p, c) ∈ plan) :
    afterPlan plan fs p = some (.whole c) := by
  induction plan generalizing fs with
  | nil => cases h
  | cons x plan ih =>
    obtain ⟨p', c'⟩ := x
    simp only [List.map_cons, List.nodup_cons] at hn
    rw [afterPlan]
    rcases List.mem_cons.1 h with e | e
    · cases e
      rw [afterPlan_other (fun d hd => hn.1 (List.mem_map.2 ⟨_, hd, rfl⟩)), Files.set_same]
    · exact ih hn.2 e

/-- A run of a plan that succeeds has written everything. -/
theorem runs_plan_success {plan : List (FPath × FileContent)} {fs fs' : Files}
    (h : Runs (planProgram plan (.exit (.ok ()))) fs fs' .success) : fs' = afterPlan plan fs := by
  induction plan generalizing fs with
  | nil => cases h; rfl
  | cons x plan ih =>
    obtain ⟨p, c⟩ := x
    rw [planProgram] at h
    cases h with
    | create h => cases h with
      | fill h => rw [Files.set_set] at h; rw [ih h, afterPlan]

theorem runs_plan_exists (plan : List (FPath × FileContent)) (fs : Files) :
    Runs (planProgram plan (.exit (.ok ()))) fs (afterPlan plan fs) .success := by
  induction plan generalizing fs with
  | nil => exact .success fs
  | cons x plan ih =>
    obtain ⟨p, c⟩ := x
    refine .create (.fill ?_)
    rw [Files.set_set]
    exact ih _

theorem runs_plan_no_fault {plan : List (FPath × FileContent)} {fs fs' : Files} {e : Fault}
    (h : Runs (planProgram plan (.exit (.ok ()))) fs fs' (.fault e)) : False := by
  induction plan generalizing fs with
  | nil => cases h
  | cons x plan ih =>
    obtain ⟨p, c⟩ := x
    rw [planProgram] at h
    cases h with
    | create h => cases h with
      | fill h => exact ih h

private theorem progress_zero {p : FPath} {c : FileContent} {plan : List (FPath × FileContent)}
    {fs fs' : Files} (hn : (((p, c) :: plan).map (·.1)).Nodup)
    (h1 : ∀ q, q ≠ p → fs' q = fs q) (h2 : fs' p = fs p ∨ fs' p = some .torn) :
    Progress ((p, c) :: plan) fs fs' 0 := by
  simp only [List.map_cons, List.nodup_cons] at hn
  refine ⟨Nat.zero_le _, ?_, ?_, ?_, ?_⟩
  · intro i _ _ hi; omega
  · intro q d hq
    simp only [List.getElem?_cons_zero, Option.some.injEq, Prod.mk.injEq] at hq
    rw [← hq.1]; exact h2
  · intro i q d hi hq
    cases i with
    | zero => omega
    | succ i =>
      simp only [List.getElem?_cons_succ] at hq
      exact h1 q fun e => hn.1 (List.mem_map.2 ⟨_, List.mem_of_getElem? hq, e⟩)
  · intro q hq
    exact h1 q fun e => hq c (by subst e; exact List.mem_cons_self)

theorem runs_plan_progress {plan : List (FPath × FileContent)} {fs fs' : Files} {e : Exit}
    (hn : (plan.map (·.1)).Nodup) (h : Runs (planProgram plan (.exit (.ok ()))) fs fs' e) :
    ∃ k, Progress plan fs fs' k ∧ (e = .success → k = plan.length) := by
  induction plan generalizing fs with
  | nil =>
    refine ⟨0, ⟨Nat.le_refl _, ?_, ?_, ?_, ?_⟩, fun _ => rfl⟩
    · intro i _ _ hi; omega
    · intro _ _ hq; simp at hq
    · intro _ _ _ _ hq; simp at hq
    · intro q _
      cases h <;> rfl
  | cons x plan ih =>
    obtain ⟨p, c⟩ := x
    have hn' := hn
    simp only [List.map_cons, List.nodup_cons] at hn'
    have torn : ∀ gs : Files, gs = fs.set p .torn →
        Progress ((p, c) :: plan) fs gs 0 := by
      rintro gs rfl
      exact progress_zero hn (fun q hq => Files.set_other hq) (Or.inr (Files.set_same ..))
    rw [planProgram] at h
    cases h with
    | stop => exact ⟨0, progress_zero hn (fun _ _ => rfl) (Or.inl rfl), fun e => nomatch e⟩
    | createError => exact ⟨0, progress_zero hn (fun _ _ => rfl) (Or.inl rfl), fun e => nomatch e⟩
    | create h =>
      cases h with
      | stop => exact ⟨0, torn _ rfl, fun e => nomatch e⟩
      | fillError => exact ⟨0, torn _ (Files.set_set ..), fun e => nomatch e⟩
      | fillStop => exact ⟨0, torn _ (Files.set_set ..), fun e => nomatch e⟩
      | fill h =>
        rw [Files.set_set] at h
        obtain ⟨k, hp, hk⟩ := ih hn'.2 h
        have hnot : ∀ d, (p, d) ∉ plan := fun d hd => hn'.1 (List.mem_map.2 ⟨_, hd, rfl⟩)
        have hne : ∀ {q d}, (q, d) ∈ plan → q ≠ p := fun hm e => hnot _ (by rw [← e]; exact hm)
        refine ⟨k + 1, ⟨by simpa using hp.bound, ?_, ?_, ?_, ?_⟩, fun e => by simp [hk e]⟩
        · intro i q d hi hq
          cases i with
          | zero =>
            simp only [List.getElem?_cons_zero, Option.some.injEq, Prod.mk.injEq] at hq
            rw [← hq.1, ← hq.2, hp.others p hnot, Files.set_same]
          | succ i => exact hp.done i q d (by omega) (by simpa using hq)
        · intro q d hq
          simp only [List.getElem?_cons_succ] at hq
          have := hp.current q d hq
          rwa [Files.set_other (hne (List.mem_of_getElem? hq))] at this
        · intro i q d hi hq
          cases i with
          | zero => omega
          | succ i =>
            simp only [List.getElem?_cons_succ] at hq
            rw [hp.later i q d (by omega) hq, Files.set_other (hne (List.mem_of_getElem? hq))]
        · intro q hq
          rw [hp.others q (fun d hd => hq d (List.mem_cons_of_mem _ hd)),
            Files.set_other (fun e => hq c (by subst e; exact List.mem_cons_self))]

/-! ## Which paths a program touches -/

/-- The paths in a program. -/
def Program.paths : Program → List FPath
  | .exit _ => []
  | .create p next => p :: next.paths
  | .fill p _ next => p :: next.paths

theorem runs_touches {P : Program} {fs fs' : Files} {e : Exit} (h : Runs P fs fs' e) {q : FPath}
    (hq : fs' q ≠ fs q) : q ∈ P.paths := by
  induction h with
  | success | fault | stop | createError => exact absurd rfl hq
  | @create P fs fs' p e h ih =>
    by_cases hp : q = p
    · rw [hp]; exact List.mem_cons_self
    · exact List.mem_cons_of_mem _ (ih (by rwa [Files.set_other hp]))
  | @fill P fs fs' p c e h ih =>
    by_cases hp : q = p
    · rw [hp]; exact List.mem_cons_self
    · exact List.mem_cons_of_mem _ (ih (by rwa [Files.set_other hp]))
  | fillError P fs p c | fillStop P fs p c =>
    by_cases hp : q = p
    · rw [hp]; exact List.mem_cons_self
    · exact absurd (Files.set_other hp) hq

theorem paths_after {α : Type} {r : Res α} {next : α → Program} {q : FPath}
    (h : q ∈ (Program.after r next).paths) : ∃ x, r = .ok x ∧ q ∈ (next x).paths := by
  unfold Program.after at h
  split at h
  · exact ⟨_, rfl, h⟩
  · cases h

variable [F32Format] {W : World}

theorem paths_writeToFile {w : FileWrite} {next : Program} {q : FPath}
    (h : q ∈ (writeToFileProgram W w next).paths) : q = w.path ∨ q ∈ next.paths := by
  unfold writeToFileProgram at h
  obtain ⟨_, _, h⟩ := paths_after h
  rcases List.mem_cons.1 h with h | h
  · exact .inl h
  · obtain ⟨_, _, h⟩ := paths_after h
    rcases List.mem_cons.1 h with h | h
    · exact .inl h
    · exact .inr h

/-- Every file name ends in the format. -/
theorem filename_ends {debug : Bool} {s : GeneratedSbom} {b : Option String} {k : List String}
    {n : String} (h : filename debug s b k = .ok n) :
    ∃ stem, n = stem ++ ("." ++ s.sbomConfig.getFormat.display) := by
  unfold filename at h
  simp only [bind, Except.bind] at h
  repeat' split at h
  all_goals first
    | (injection h with h; exact ⟨_, by rw [← h, String.append_assoc]⟩)
    | exact absurd h (by simp)

theorem paths_writeToFiles {s : GeneratedSbom} {next : Program} {q : FPath}
    (h : q ∈ (writeToFilesProgram W s next).paths) :
    (∃ stem, q = s.manifestPath.dropLast ++ [stem ++ ("." ++ s.sbomConfig.getFormat.display)]) ∨
      q ∈ next.paths := by
  have key : ∀ md top d cs, q ∈ (artifactsProgram W s md top d next cs).paths →
      (∃ stem, q = s.manifestPath.dropLast ++ [stem ++ ("." ++ s.sbomConfig.getFormat.display)]) ∨
        q ∈ next.paths := by
    intro md top d cs
    induction cs with
    | nil => intro h; exact .inr h
    | cons c cs ih =>
      intro h
      unfold artifactsProgram at h
      obtain ⟨_, _, h⟩ := paths_after h
      obtain ⟨_, _, h⟩ := paths_after h
      split at h
      · obtain ⟨n, hn, h⟩ := paths_after h
        rcases paths_writeToFile h with h | h
        · obtain ⟨stem, e⟩ := filename_ends hn
          exact .inl ⟨stem, by rw [h, ← e]; rfl⟩
        · exact ih h
      · exact ih h
  unfold writeToFilesProgram at h
  split at h
  · obtain ⟨n, hn, h⟩ := paths_after h
    rcases paths_writeToFile h with h | h
    · obtain ⟨stem, e⟩ := filename_ends hn
      exact .inl ⟨stem, by rw [h, ← e]; rfl⟩
    · exact .inr h
  · split at h
    · cases h
    · split at h
      · cases h
      · split at h
        · cases h
        · exact key _ _ _ _ h

theorem paths_writeAll {ss : List GeneratedSbom} {q : FPath} (h : q ∈ (writeAllProgram W ss).paths) :
    ∃ s ∈ ss, ∃ stem,
      q = s.manifestPath.dropLast ++ [stem ++ ("." ++ s.sbomConfig.getFormat.display)] := by
  induction ss with
  | nil => cases h
  | cons s ss ih =>
    rcases paths_writeToFiles h with h | h
    · exact ⟨s, List.mem_cons_self, h⟩
    · obtain ⟨s', hs', h⟩ := ih h
      exact ⟨s', List.mem_cons_of_mem _ hs', h⟩

theorem mem_indexPackages {pkgs : List Package} {id : PackageId} {p : Package}
    (h : (indexPackages pkgs).lookup id = some p) : p ∈ pkgs ∧ p.id = id := by
  have := mem_ofList (OMap.lookup_mem h)
  simp only [List.mem_map, Prod.mk.injEq] at this
  obtain ⟨a, ha, h1, rfl⟩ := this
  exact ⟨ha, h1⟩

/-- Where the SBOMs come from, for any metadata. -/
theorem createSboms_origin {env : Env} {md : CargoMetadata} {config : SbomConfig}
    {sboms : List GeneratedSbom} (h : createSboms env md config = .ok sboms) :
    ∀ s ∈ sboms, s.sbomConfig = config ∧ ∃ p ∈ md.packages, p.id ∈ md.workspaceMembers ∧
      s.manifestPath = p.manifestPath := by
  intro s hs
  unfold createSboms at h
  split at h
  · cases h
  · obtain ⟨hl, h⟩ := createSbomsLoop_ok h
    obtain ⟨j, hj⟩ := List.mem_iff_getElem?.1 hs
    have hj' : j < md.workspaceMembers.length := by
      rw [← hl]; exact (List.getElem?_eq_some_iff.1 hj).1
    have hc := h j _ s (List.getElem?_eq_getElem hj') hj
    unfold createSbom at hc
    simp only [Res.bind_ok] at hc
    obtain ⟨_, _, _, _, pkg, hp, _, _, hc⟩ := hc
    cases hc
    rw [index_ok] at hp
    obtain ⟨h1, h2⟩ := mem_indexPackages hp
    exact ⟨rfl, pkg, h1, by rw [h2]; exact List.getElem_mem _, rfl⟩

/-! ## The program of a run is a plan -/

theorem Spec.PlanOf.nil : PlanOf W [] [] := rfl

theorem Spec.PlanOf.cons {w : FileWrite} {ws : List FileWrite} {c : FileContent}
    {plan : List (FPath × FileContent)} (h : writeFile W.venv W.env.debug w = .ok c)
    (hp : PlanOf W ws plan) : PlanOf W (w :: ws) ((w.path, c) :: plan) := by
  unfold PlanOf at hp ⊢
  rw [List.map_cons, List.map_cons, hp, h]; rfl

theorem Spec.PlanOf.append {ws vs : List FileWrite} {l m : List (FPath × FileContent)}
    (h : PlanOf W ws l) (h' : PlanOf W vs m) : PlanOf W (ws ++ vs) (l ++ m) := by
  unfold PlanOf at h h' ⊢
  rw [List.map_append, List.map_append, h, h']

theorem Spec.PlanOf.exists {ws : List FileWrite}
    (h : ∀ w ∈ ws, ∃ c, writeFile W.venv W.env.debug w = .ok c) : ∃ plan, PlanOf W ws plan := by
  induction ws with
  | nil => exact ⟨[], rfl⟩
  | cons w ws ih =>
    obtain ⟨c, hc⟩ := h w List.mem_cons_self
    obtain ⟨plan, hp⟩ := ih fun w hw => h w (List.mem_cons_of_mem _ hw)
    exact ⟨_, hp.cons hc⟩

theorem Spec.PlanOf.uncons {w : FileWrite} {ws : List FileWrite} {plan : List (FPath × FileContent)}
    (h : PlanOf W (w :: ws) plan) : ∃ c rest, plan = (w.path, c) :: rest ∧
      writeFile W.venv W.env.debug w = .ok c ∧ PlanOf W ws rest := by
  unfold PlanOf at h
  cases plan with
  | nil => cases h
  | cons x rest =>
    simp only [List.map_cons, List.cons.injEq] at h
    obtain ⟨h1, h2⟩ := h
    cases hw : writeFile W.venv W.env.debug w with
    | error e => rw [hw] at h1; cases h1
    | ok c => rw [hw] at h1; cases h1; exact ⟨c, rest, rfl, rfl, h2⟩

theorem Spec.PlanOf.paths {ws : List FileWrite} {plan : List (FPath × FileContent)}
    (h : PlanOf W ws plan) : plan.map (·.1) = ws.map (·.path) := by
  induction ws generalizing plan with
  | nil => cases plan with
    | nil => rfl
    | cons x l => cases h
  | cons w ws ih =>
    obtain ⟨c, rest, rfl, _, h⟩ := h.uncons
    simp only [List.map_cons, ih h]

theorem Spec.PlanOf.mem {ws : List FileWrite} {plan : List (FPath × FileContent)}
    (h : PlanOf W ws plan) {w : FileWrite} (hw : w ∈ ws) :
    ∃ c, writeFile W.venv W.env.debug w = .ok c ∧ (w.path, c) ∈ plan := by
  induction ws generalizing plan with
  | nil => cases hw
  | cons v ws ih =>
    obtain ⟨c, rest, rfl, hc, h⟩ := h.uncons
    rcases List.mem_cons.1 hw with rfl | hw
    · exact ⟨c, hc, List.mem_cons_self⟩
    · obtain ⟨d, hd, hm⟩ := ih h hw
      exact ⟨d, hd, List.mem_cons_of_mem _ hm⟩

theorem writeToFile_plan {w : FileWrite} {c : FileContent} {next : Program}
    (h : writeFile W.venv W.env.debug w = .ok c) :
    writeToFileProgram W w next = .create w.path (.fill w.path c next) := by
  unfold writeFile at h
  simp only [Res.bind_ok] at h
  obtain ⟨u, h1, h2⟩ := h
  unfold writeToFileProgram
  rw [h1]
  simp only [Program.after]
  rw [h2]

theorem artifacts_plan {s : GeneratedSbom} {md : Metadata} {top : Component} {d : Describe}
    {next : Program} {cs : List Component} {arts : List (Bom × List String)} {ws : List FileWrite}
    {plan : List (FPath × FileContent)}
    (h1 : artifactLoop s.bom md top s.targetKinds d cs = .ok arts)
    (h2 : artifactWrites W.env.debug s arts = .ok ws) (hp : PlanOf W ws plan) :
    artifactsProgram W s md top d next cs = planProgram plan next := by
  induction cs generalizing arts ws plan with
  | nil =>
    cases h1; cases h2
    cases plan with
    | nil => rfl
    | cons x l => cases hp
  | cons c cs ih =>
    unfold artifactLoop at h1
    simp only [Res.bind_ok] at h1
    obtain ⟨k, hk, sel, hsel, rest, hrest, h1⟩ := h1
    unfold artifactsProgram
    simp only [hk, hsel, Program.after]
    cases sel with
    | false =>
      simp only [Bool.false_eq_true, if_false] at h1 ⊢
      cases h1
      exact ih hrest h2 hp
    | true =>
      simp only [if_true] at h1 ⊢
      cases h1
      unfold artifactWrites at h2
      simp only [artifactBom, Res.bind_ok, Except.ok.injEq, exists_eq_left', exists_eq_left] at h2
      obtain ⟨name, hname, more, hmore, h2⟩ := h2
      subst h2
      obtain ⟨x, l, rfl, hx, hp⟩ := hp.uncons
      rw [show filename W.env.debug s (some c.name) k = .ok name from hname]
      simp only
      exact (writeToFile_plan hx).trans (by rw [planProgram, ih hrest hmore hp])

theorem writeToFiles_plan {s : GeneratedSbom} {next : Program} {ws : List FileWrite}
    {plan : List (FPath × FileContent)} (h : writeToFiles W.env.debug s = .ok ws)
    (hp : PlanOf W ws plan) : writeToFilesProgram W s next = planProgram plan next := by
  unfold writeToFiles at h
  unfold writeToFilesProgram
  generalize s.sbomConfig.describe.getD .crate = d at h
  have key : ∀ d, (do
      let arts ← perArtifactSboms s.bom s.targetKinds d
      artifactWrites W.env.debug s arts) = .ok ws → (match s.bom.metadata with
    | none => .exit (.error (.panic "called `Option::unwrap()` on a `None` value"))
    | some md => match md.component with
      | none => .exit (.error (.panic "called `Option::unwrap()` on a `None` value"))
      | some top => match top.components with
        | none => .exit (.error (.panic "called `Option::unwrap()` on a `None` value"))
        | some cs => artifactsProgram W s md top d next cs) = planProgram plan next := by
    intro d h
    simp only [Res.bind_ok] at h
    obtain ⟨arts, h1, h2⟩ := h
    unfold perArtifactSboms at h1
    cases hmd : s.bom.metadata with
    | none => rw [hmd] at h1; cases h1
    | some md =>
      rw [hmd] at h1
      simp only at h1 ⊢
      cases htop : md.component with
      | none => rw [htop] at h1; cases h1
      | some top =>
        rw [htop] at h1
        simp only at h1 ⊢
        cases hcs : top.components with
        | none => rw [hcs] at h1; cases h1
        | some cs =>
          rw [hcs] at h1
          exact artifacts_plan h1 h2 hp
  cases d with
  | crate =>
    simp only [Res.bind_ok] at h
    obtain ⟨n, hn, h⟩ := h
    cases h
    obtain ⟨c, rest, rfl, hc, hp⟩ := hp.uncons
    cases rest with
    | cons x l => cases hp
    | nil =>
      simp only [hn, Program.after]
      rw [writeToFile_plan hc]; rfl
  | binaries => exact key _ h
  | allCargoTargets => exact key _ h

theorem writeAll_plan {ss : List GeneratedSbom} {ws : List FileWrite}
    {plan : List (FPath × FileContent)} (h : allWrites W.env.debug ss = .ok ws)
    (hp : PlanOf W ws plan) : writeAllProgram W ss = planProgram plan (.exit (.ok ())) := by
  induction ss generalizing ws plan with
  | nil =>
    cases h
    cases plan with
    | nil => rfl
    | cons x l => cases hp
  | cons s ss ih =>
    unfold allWrites at h
    simp only [Res.bind_ok] at h
    obtain ⟨vs, h1, rest, h2, h⟩ := h
    cases h
    have : ∃ l m, plan = l ++ m ∧ PlanOf W vs l ∧ PlanOf W rest m := by
      unfold PlanOf at hp ⊢
      rw [List.map_append] at hp
      obtain ⟨l, m, e, e1, e2⟩ := List.map_eq_append_iff.1 hp.symm
      exact ⟨l, m, e, e1.symm, e2.symm⟩
    obtain ⟨l, m, rfl, hl, hm⟩ := this
    rw [writeAllProgram, writeToFiles_plan h1 hl, ih h2 hm, planProgram_append]

theorem allWrites_ok {debug : Bool} {ss : List GeneratedSbom}
    (h : ∀ s ∈ ss, ∃ ws, writeToFiles debug s = .ok ws) : ∃ ws, allWrites debug ss = .ok ws := by
  induction ss with
  | nil => exact ⟨[], rfl⟩
  | cons s ss ih =>
    obtain ⟨ws, hw⟩ := h s List.mem_cons_self
    obtain ⟨rest, hr⟩ := ih fun s hs => h s (List.mem_cons_of_mem _ hs)
    exact ⟨ws ++ rest, by simp [allWrites, hw, hr, bind, Except.bind]⟩

theorem allWrites_mem {debug : Bool} {ss : List GeneratedSbom} {ws : List FileWrite}
    (h : allWrites debug ss = .ok ws) {w : FileWrite} :
    w ∈ ws ↔ ∃ s ∈ ss, ∃ vs, writeToFiles debug s = .ok vs ∧ w ∈ vs := by
  induction ss generalizing ws with
  | nil => cases h; simp
  | cons s ss ih =>
    unfold allWrites at h
    simp only [Res.bind_ok] at h
    obtain ⟨vs, h1, rest, h2, h⟩ := h
    cases h
    rw [List.mem_append, ih h2]
    constructor
    · rintro (hw | ⟨s', hs', vs', h', hw⟩)
      · exact ⟨s, List.mem_cons_self, vs, h1, hw⟩
      · exact ⟨s', List.mem_cons_of_mem _ hs', vs', h', hw⟩
    · rintro ⟨s', hs', vs', h', hw⟩
      rcases List.mem_cons.1 hs' with rfl | hs'
      · rw [h1] at h'; cases h'; exact .inl hw
      · exact .inr ⟨s', hs', vs', h', hw⟩

/-! ## Successful runs of arbitrary programs -/

/-- The files after all operations of a program. -/
def Program.effect : Program → Files → Files
  | .exit _, fs => fs
  | .create p next, fs => next.effect (fs.set p .torn)
  | .fill p c next, fs => next.effect (fs.set p (.whole c))

theorem runs_success {P : Program} {fs fs' : Files} (h : Runs P fs fs' .success) :
    fs' = P.effect fs := by
  generalize he : Exit.success = e at h
  induction h with
  | success => rfl
  | fault | stop | createError | fillError | fillStop => cases he
  | create h ih => exact ih he
  | fill h ih => exact ih he

theorem effect_other {P : Program} {fs : Files} {q : FPath} (h : q ∉ P.paths) :
    P.effect fs q = fs q := by
  induction P generalizing fs with
  | exit => rfl
  | create p next ih =>
    simp only [Program.paths, List.mem_cons, not_or] at h
    rw [Program.effect, ih h.2, Files.set_other h.1]
  | fill p c next ih =>
    simp only [Program.paths, List.mem_cons, not_or] at h
    rw [Program.effect, ih h.2, Files.set_other h.1]

private theorem effect_set {p q : FPath} {x : FileState} {next : Program} {fs gs : Files}
    (ih : q ∈ next.paths → next.effect (fs.set p x) q = next.effect (gs.set p x) q)
    (h : q ∈ p :: next.paths) : next.effect (fs.set p x) q = next.effect (gs.set p x) q := by
  by_cases hm : q ∈ next.paths
  · exact ih hm
  · have : q = p := (List.mem_cons.1 h).resolve_right hm
    rw [effect_other hm, effect_other hm, this, Files.set_same, Files.set_same]

theorem effect_mem {P : Program} {fs gs : Files} {q : FPath} (h : q ∈ P.paths) :
    P.effect fs q = P.effect gs q := by
  induction P generalizing fs gs with
  | exit => cases h
  | create p next ih => exact effect_set (fun h => ih h) h
  | fill p c next ih => exact effect_set (fun h => ih h) h

/-- Whatever happened to the files that a program writes, a successful run repairs it. -/
theorem effect_repairs {P : Program} {fs gs : Files} (h : ∀ q, q ∉ P.paths → gs q = fs q) :
    P.effect gs = P.effect fs := by
  funext q
  by_cases hq : q ∈ P.paths
  · exact effect_mem hq
  · rw [effect_other hq, effect_other hq, h q hq]

/-! ## The configuration of a run -/

theorem resolveConfig_ok {a : Args} {config : SbomConfig} (h : W.resolveConfig a = .ok config) :
    config.format = a.format ∧ config.describe = a.describe ∧ config.specVersion = a.specVersion ∧
    config.target ≠ none ∧
    (a.filenameOverride = none → ∀ o, config.outputOptions = some o → o.filename = .crateName) := by
  unfold World.resolveConfig at h
  cases hc : a.asConfig with
  | error e => rw [hc] at h; cases h
  | ok cli =>
    rw [hc] at h
    simp only at h
    unfold Args.asConfig Args.filenamePattern FilenameOverride.new at hc
    have hcli : ∃ fp, cli = a.configWith fp ∧ (a.filenameOverride = none → fp = .crateName) := by
      cases ho : a.filenameOverride with
      | none => rw [ho] at hc; cases hc; exact ⟨_, rfl, fun _ => rfl⟩
      | some o =>
        rw [ho] at hc
        by_cases hs : o.toList.contains mainSeparator = true
        · simp only [hs, if_true] at hc; cases hc
        · simp only [hs, if_false] at hc; cases hc
          exact ⟨_, rfl, fun e => nomatch e⟩
    obtain ⟨fp, rfl, hfp⟩ := hcli
    have key : ∀ c : SbomConfig, (∃ t, c = { (a.configWith fp).merge (SbomConfig.fromEnv W.buildTarget)
          with target := some t }) →
        c.format = a.format ∧ c.describe = a.describe ∧ c.specVersion = a.specVersion ∧
        c.target ≠ none ∧
        (a.filenameOverride = none → ∀ o, c.outputOptions = some o → o.filename = .crateName) := by
      rintro c ⟨t, rfl⟩
      refine ⟨rfl, rfl, rfl, by simp, ?_⟩
      intro hn o ho
      simp only [SbomConfig.merge, SbomConfig.fromEnv, Args.configWith, Option.none_or,
        Option.some.injEq] at ho
      subst ho
      exact hfp hn
    split at h
    · simp only [Res.bind_ok] at h
      obtain ⟨host, _, h⟩ := h
      cases h
      exact key _ ⟨_, rfl⟩
    · next hn =>
      cases h
      refine key _ ?_
      cases ht : ((a.configWith fp).merge (SbomConfig.fromEnv W.buildTarget)).target with
      | none => rw [ht] at hn; exact absurd rfl hn
      | some t => exact ⟨t, by rw [← ht]⟩

end Cdx
