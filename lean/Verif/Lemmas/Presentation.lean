import Verif.Lemmas.Newer
import Verif.Lemmas.Written
import Verif.Spec.Presentation

set_option linter.unusedSectionVars false

/-!
# What the options for files have no influence on
-/

namespace Cdx

open Spec

/-- A configuration with other options for files. -/
def SbomConfig.shown (c : SbomConfig) (o : Option OutputOptions) (f : Option Format) (d : Option Describe)
    (v : Option SpecVersion) : SbomConfig :=
  { c with outputOptions := o, format := f, describe := d, specVersion := v }

variable {c : SbomConfig} {o : Option OutputOptions} {f : Option Format} {d : Option Describe}
  {v : Option SpecVersion}

theorem drainQueue_shown {resolve : ResolveMap} : ∀ (q next : List Node) (out : ResolveMap),
    drainQueue resolve (c.shown o f d v) q next out = drainQueue resolve c q next out
  | [], _, _ => rfl
  | x :: q, next, out => by
    have ih := fun n o => drainQueue_shown (resolve := resolve) q n o
    unfold drainQueue
    simp only [ih]
    rfl

theorem bfsLoop_shown {resolve : ResolveMap} : ∀ (n : Nat) (q : List Node) (out : ResolveMap),
    bfsLoop resolve (c.shown o f d v) n q out = bfsLoop resolve c n q out
  | 0, _, _ => rfl
  | n + 1, q, out => by
    unfold bfsLoop
    simp only [drainQueue_shown, bfsLoop_shown n]

theorem allDependencies_shown (root : PackageId) (packages : PackageMap) (resolve : ResolveMap) :
    allDependencies root packages resolve (c.shown o f d v) = allDependencies root packages resolve c := by
  unfold allDependencies
  simp only [bfsLoop_shown]

theorem topLevelDependencies_shown (root : PackageId) (packages : PackageMap) (resolve : ResolveMap) :
    topLevelDependencies root packages resolve (c.shown o f d v) = topLevelDependencies root packages resolve c :=
  rfl

theorem targetLoop_shown (env : Env) (r : FPath) (hs : CrateHashes) (p : Package) (ref : String) :
    ∀ (ts : List Target) (subs : List Component) (kinds : TargetKinds),
      targetLoop env ⟨c.shown o f d v, r, hs⟩ p ref ts subs kinds =
        targetLoop env ⟨c, r, hs⟩ p ref ts subs kinds
  | [], _, _ => rfl
  | t :: ts, _, _ => by
    unfold targetLoop
    simp only [targetLoop_shown env r hs p ref ts]
    rfl

theorem createComponent_shown (env : Env) (r : FPath) (hs : CrateHashes) (p q : Package) (k : DependencyKindMap) :
    createComponent env ⟨c.shown o f d v, r, hs⟩ p q k = createComponent env ⟨c, r, hs⟩ p q k := rfl

theorem createMetadata_shown (env : Env) (r : FPath) (hs : CrateHashes) (p : Package) :
    createMetadata env ⟨c.shown o f d v, r, hs⟩ p = createMetadata env ⟨c, r, hs⟩ p := by
  unfold createMetadata createToplevelComponent
  simp only [targetLoop_shown, createComponent_shown]
  rfl

theorem createBom_shown (env : Env) (i : Nat) (r : FPath) (hs : CrateHashes) (package : PackageId)
    (packages : PackageMap) (resolve : ResolveMap) (k : DependencyKindMap) :
    createBom env i ⟨c.shown o f d v, r, hs⟩ package packages resolve k =
      createBom env i ⟨c, r, hs⟩ package packages resolve k := by
  unfold createBom
  simp only [createMetadata_shown, createComponent_shown]

/-- An SBOM with another configuration. -/
def GeneratedSbom.under (c : SbomConfig) (s : GeneratedSbom) : GeneratedSbom := { s with sbomConfig := c }

theorem createSbom_shown (env : Env) (r : FPath) (packages : PackageMap) (resolve : ResolveMap) (i : Nat)
    (m : PackageId) : createSbom env (c.shown o f d v) r packages resolve i m =
      (createSbom env c r packages resolve i m).map (GeneratedSbom.under (c.shown o f d v)) := by
  unfold createSbom
  simp only [allDependencies_shown, topLevelDependencies_shown, createBom_shown]
  show (indexDepKinds m resolve >>= fun k => (if c.getIncludedDependencies = _ then _ else _) >>= fun pr => _) = _
  cases indexDepKinds m resolve with
  | error e => rfl
  | ok k =>
    simp only [bind, Except.bind]
    cases (if c.getIncludedDependencies = .allDependencies then allDependencies m packages resolve c
        else topLevelDependencies m packages resolve c) with
    | error e => rfl
    | ok pr =>
      simp only
      cases packages.index m with
      | error e => rfl
      | ok pkg =>
        simp only
        cases createBom env i ⟨c, r, memberHashes env pkg.manifestPath⟩ m pr.1 pr.2 k <;> rfl

theorem createSbomsLoop_shown (env : Env) (r : FPath) (packages : PackageMap) (resolve : ResolveMap) :
    ∀ (ms : List PackageId) (i : Nat), createSbomsLoop env (c.shown o f d v) r packages resolve i ms =
      (createSbomsLoop env c r packages resolve i ms).map (List.map (GeneratedSbom.under (c.shown o f d v)))
  | [], _ => rfl
  | m :: ms, i => by
    unfold createSbomsLoop
    rw [createSbom_shown]
    cases createSbom env c r packages resolve i m with
    | error e => rfl
    | ok s =>
      simp only [bind, Except.bind, Except.map, createSbomsLoop_shown env r packages resolve ms (i + 1)]
      cases createSbomsLoop env c r packages resolve (i + 1) ms <;> rfl

theorem createSboms_shown (env : Env) (md : CargoMetadata) : createSboms env md (c.shown o f d v) =
    (createSboms env md c).map (List.map (GeneratedSbom.under (c.shown o f d v))) := by
  unfold createSboms
  cases md.resolve with
  | none => rfl
  | some nodes => exact createSbomsLoop_shown _ _ _ _ _ _

theorem createSbomsLoop_config {env : Env} {r : FPath} {packages : PackageMap} {resolve : ResolveMap} :
    ∀ {ms : List PackageId} {i : Nat} {l : List GeneratedSbom},
      createSbomsLoop env c r packages resolve i ms = .ok l → ∀ s ∈ l, s.sbomConfig = c
  | [], _, _, h, _, hs => by cases h; exact nomatch hs
  | m :: ms, i, l, h, s, hs => by
    unfold createSbomsLoop at h
    simp only [bind_ok] at h
    obtain ⟨x, hx, rest, hr, h⟩ := h
    cases h
    rcases List.mem_cons.1 hs with rfl | hs
    · simp only [createSbom, bind_ok] at hx
      obtain ⟨_, -, _, -, _, -, _, -, hx⟩ := hx
      cases hx
      rfl
    · exact createSbomsLoop_config hr s hs

theorem createSboms_config {env : Env} {md : CargoMetadata} {l : List GeneratedSbom}
    (h : createSboms env md c = .ok l) : ∀ s ∈ l, s.sbomConfig = c := by
  unfold createSboms at h
  split at h
  · exact nomatch h
  · exact createSbomsLoop_config h

/-! ### Whole runs -/

variable {W : World} {a : Args} {t : Bool}

/-- The options of a run with other options for files. -/
def Args.shown (a : Args) (t : Bool) (f : Option Format) (d : Option Describe) (v : Option SpecVersion) : Args :=
  { a with targetInFilename := t, format := f, describe := d, specVersion := v }

/-- What `Args.shown` makes of the configuration. -/
def SbomConfig.reshown (t : Bool) (f : Option Format) (d : Option Describe) (v : Option SpecVersion)
    (c : SbomConfig) : SbomConfig :=
  c.shown (c.outputOptions.map fun o => { o with platformSuffix := if t then .included else .notIncluded }) f d v

theorem resolveConfig_shown : W.resolveConfig (a.shown t f d v) =
    (W.resolveConfig a).map (SbomConfig.reshown t f d v) := by
  unfold World.resolveConfig Args.asConfig
  have hf : (a.shown t f d v).filenamePattern = a.filenamePattern := rfl
  rw [hf]
  cases a.filenamePattern with
  | error e => rfl
  | ok n =>
    simp only [Except.map]
    have ht : ((a.shown t f d v).configWith n |>.merge (SbomConfig.fromEnv W.buildTarget)).target =
      ((a.configWith n).merge (SbomConfig.fromEnv W.buildTarget)).target := rfl
    rw [ht]
    split
    · cases W.hostPlatform <;> rfl
    · rfl

theorem generateSboms_shown : W.generateSboms (a.shown t f d v) =
    (W.generateSboms a).map (List.map fun s => s.under (s.sbomConfig.reshown t f d v)) := by
  unfold World.generateSboms
  rw [resolveConfig_shown]
  cases W.resolveConfig a with
  | error e => rfl
  | ok c =>
    show (W.locateManifest a >>= fun m => W.getMetadata a m c >>= fun md =>
      createSboms W.env md (c.reshown t f d v)) = (W.locateManifest a >>= fun m => W.getMetadata a m c >>= fun md =>
      createSboms W.env md c).map _
    cases W.locateManifest a with
    | error e => rfl
    | ok m =>
      show (W.getMetadata a m c >>= _) = (W.getMetadata a m c >>= _).map _
      cases W.getMetadata a m c with
      | error e => rfl
      | ok md =>
        show createSboms W.env md (c.reshown t f d v) = (createSboms W.env md c).map _
        rw [SbomConfig.reshown, createSboms_shown]
        cases h : createSboms W.env md c with
        | error e => rfl
        | ok l =>
          refine congrArg Except.ok (List.map_congr_left fun s hs => ?_)
          rw [createSboms_config h s hs]
          rfl

/-! ### The files of a run -/

section
variable [F32Format] {u w : SpecVersion} {s : GeneratedSbom} {p q : Program}

/-- The document can be written in version `u`, and has nothing newer. -/
def Since (u : SpecVersion) (b : Bom) : Prop := b.converts u = true ∧ b.at u = { b with specVersion := u }

theorem GenBom.since {b : Bom} (h : GenBom b) (u : SpecVersion) : Since u b :=
  letI : ReadLimit := ⟨2⟩
  ⟨(h.jsonOk (Nat.le_refl 2) u).converts, h.at_eq u⟩

theorem serialise_newer {b : Bom} {path : FPath} (hlt : u.ord < w.ord) (hv : c.specVersion.getD .v1_3 = u)
    (hb : Since u b) : serialise (fileWrite b path (c.shown c.outputOptions c.format c.describe (some w))) =
      (serialise (fileWrite b path c)).map (withVersion w) := by
  have hw : b.converts w = true := by
    cases w with
    | v1_3 => cases u <;> exact absurd hlt (by decide)
    | _ => rfl
  haveI : ReadLimit := ⟨2⟩
  have hj := Bom.toJson_newer hlt b
  have hx := Bom.writeXml_newer hlt b
  rw [hb.2] at hj hx
  obtain ⟨o', e1, e2⟩ := Bom.toJson_relabel (v := u) w.display b
  have hj : Bom.toJson w b = .obj (relabel w.display o') := hj.trans e2
  have hx : Bom.writeXml w b = Bom.writeXml u b := hx
  unfold serialise fileWrite
  show (match c.getFormat with
    | .json => match b.outputJson w with
      | .ok j => Except.ok (FileContent.json j)
      | .error e => .error (Fault.err e)
    | .xml => match b.outputXml w with
      | .ok (ns, l) => .ok (.xml ns l)
      | .error e => .error (Fault.err e)) = _
  rw [hv]
  cases c.getFormat with
  | json =>
    simp only [Bom.outputJson, if_pos hw, if_pos hb.1, hj, e1]
    rfl
  | xml =>
    simp only [Bom.outputXml, if_pos hw, if_pos hb.1, hx]
    rfl

theorem after_map {α : Type} (r : Res α) {next next' : α → Program} {g : FileContent → FileContent}
    (h : ∀ x, r = .ok x → next' x = mapContents g (next x)) :
    Program.after r next' = mapContents g (Program.after r next) := by
  cases r with
  | error e => rfl
  | ok x => exact h x rfl

theorem writeToFileProgram_newer {b : Bom} {path : FPath} (hlt : u.ord < w.ord)
    (hv : c.specVersion.getD .v1_3 = u) (hb : Since u b) (hp : q = mapContents (withVersion w) p) :
    writeToFileProgram W (fileWrite b path (c.shown c.outputOptions c.format c.describe (some w))) q =
      mapContents (withVersion w) (writeToFileProgram W (fileWrite b path c) p) := by
  unfold writeToFileProgram
  refine after_map _ fun _ _ => ?_
  rw [serialise_newer hlt hv hb]
  show Program.create _ _ = Program.create _ _
  congr 1
  cases serialise (fileWrite b path c) with
  | error e => rfl
  | ok x =>
    show Program.fill _ _ _ = Program.fill _ _ _
    rw [hp]
    rfl

/-- The SBOM with version `w` to be written. -/
def GeneratedSbom.newer (w : SpecVersion) (s : GeneratedSbom) : GeneratedSbom :=
  s.under (s.sbomConfig.shown s.sbomConfig.outputOptions s.sbomConfig.format s.sbomConfig.describe (some w))

theorem artifactsProgram_newer {md : Metadata} {top : Component} {describe : Describe} (hlt : u.ord < w.ord)
    (hv : s.sbomConfig.specVersion.getD .v1_3 = u) (hp : q = mapContents (withVersion w) p) :
    ∀ cs : List Component, (∀ c ∈ cs, Since u (artifactBom s.bom md top c)) →
      artifactsProgram W (s.newer w) md top describe q cs =
        mapContents (withVersion w) (artifactsProgram W s md top describe p cs)
  | [], _ => hp
  | c :: cs, h => by
    have ih := artifactsProgram_newer (md := md) (top := top) (describe := describe) hlt hv hp cs
      fun x hx => h x (.tail _ hx)
    unfold artifactsProgram
    refine after_map _ fun k _ => after_map _ fun sel _ => ?_
    cases sel with
    | false => exact ih
    | true =>
      refine after_map (filename W.env.debug s (some c.name) k) fun name _ => ?_
      exact writeToFileProgram_newer hlt hv (h c (.head _)) ih

theorem writeToFilesProgram_newer (hlt : u.ord < w.ord) (hv : s.sbomConfig.specVersion.getD .v1_3 = u)
    (hb : GenBom s.bom) (hp : q = mapContents (withVersion w) p) :
    writeToFilesProgram W (s.newer w) q = mapContents (withVersion w) (writeToFilesProgram W s p) := by
  unfold writeToFilesProgram
  have hd : (s.newer w).sbomConfig.describe = s.sbomConfig.describe := rfl
  have hm : (s.newer w).bom = s.bom := rfl
  rw [hd, hm]
  have arts : ∀ d, (match s.bom.metadata with
      | none => Program.exit (.error (.panic "called `Option::unwrap()` on a `None` value"))
      | some md => match md.component with
        | none => .exit (.error (.panic "called `Option::unwrap()` on a `None` value"))
        | some top => match top.components with
          | none => .exit (.error (.panic "called `Option::unwrap()` on a `None` value"))
          | some cs => artifactsProgram W (s.newer w) md top d q cs) =
      mapContents (withVersion w) (match s.bom.metadata with
      | none => Program.exit (.error (.panic "called `Option::unwrap()` on a `None` value"))
      | some md => match md.component with
        | none => .exit (.error (.panic "called `Option::unwrap()` on a `None` value"))
        | some top => match top.components with
          | none => .exit (.error (.panic "called `Option::unwrap()` on a `None` value"))
          | some cs => artifactsProgram W s md top d p cs) := by
    intro d
    obtain ⟨m, em, hg⟩ := hb.metadata
    obtain ⟨top, et, -, hsub⟩ := hg.component
    rw [em]
    simp only [et]
    cases ec : top.components with
    | none => rfl
    | some cs =>
      exact artifactsProgram_newer hlt hv hp cs fun c hc => (hb.artifact em et (hsub cs ec c hc).1).since u
  cases s.sbomConfig.describe.getD .crate with
  | crate =>
    refine after_map (filename W.env.debug s none []) fun name _ => ?_
    exact writeToFileProgram_newer hlt hv (hb.since u) hp
  | binaries => exact arts _
  | allCargoTargets => exact arts _

theorem writeAllProgram_newer (hlt : u.ord < w.ord) : ∀ l : List GeneratedSbom,
    (∀ s ∈ l, s.sbomConfig.specVersion.getD .v1_3 = u ∧ GenBom s.bom) →
      writeAllProgram W (l.map (GeneratedSbom.newer w)) = mapContents (withVersion w) (writeAllProgram W l)
  | [], _ => rfl
  | s :: l, h =>
    writeToFilesProgram_newer hlt (h s (.head _)).1 (h s (.head _)).2
      (writeAllProgram_newer hlt l fun x hx => h x (.tail _ hx))

end

end Cdx
