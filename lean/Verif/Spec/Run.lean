import Verif.Model.Main
import Verif.Spec.Valid
import Verif.Spec.Graph

/-!
# Specification: running a program of file operations

What the operations do to the files, when any of them may fail and the process may be stopped at any
time. A failed or interrupted write leaves the file in an unknown state.
-/

namespace Cdx.Spec

/-- What a file holds: something from before, an unknown part of a document, or a whole document. -/
inductive FileState where
  | before (text : String)
  | torn
  | whole (c : FileContent)

/-- The files of the system. -/
abbrev Files := FPath → Option FileState

/-- The files after one of them has changed. -/
def Files.set (fs : Files) (p : FPath) (x : FileState) : Files :=
  fun q => if q = p then some x else fs q

/-- How a run ends: with exit code 0, with a fault of the program, with an error of the file system,
or by being stopped from outside. -/
inductive Exit where
  | success
  | fault (e : Fault)
  | ioError
  | stopped

/-- `Runs P fs fs' e`: running `P` on the files `fs` can leave the files `fs'` and end with `e`. -/
inductive Runs : Program → Files → Files → Exit → Prop where
  /-- The program ends by itself. -/
  | success (fs : Files) : Runs (.exit (.ok ())) fs fs .success
  | fault (fs : Files) (e : Fault) : Runs (.exit (.error e)) fs fs (.fault e)
  /-- The process is stopped between two operations. -/
  | stop (P : Program) (fs : Files) : Runs P fs fs .stopped
  /-- A file is created, or truncated if it exists. -/
  | create {P : Program} {fs fs' : Files} {p : FPath} {e : Exit} :
      Runs P (fs.set p .torn) fs' e → Runs (.create p P) fs fs' e
  /-- A file cannot be created. -/
  | createError (P : Program) (fs : Files) (p : FPath) : Runs (.create p P) fs fs .ioError
  /-- A file is written completely. -/
  | fill {P : Program} {fs fs' : Files} {p : FPath} {c : FileContent} {e : Exit} :
      Runs P (fs.set p (.whole c)) fs' e → Runs (.fill p c P) fs fs' e
  /-- A file is written in part, and there is an error. -/
  | fillError (P : Program) (fs : Files) (p : FPath) (c : FileContent) :
      Runs (.fill p c P) fs (fs.set p .torn) .ioError
  /-- A file is written in part, and the process is stopped. -/
  | fillStop (P : Program) (fs : Files) (p : FPath) (c : FileContent) :
      Runs (.fill p c P) fs (fs.set p .torn) .stopped

/-- What a run learns before it generates anything: its options are compatible, it has a configuration,
and cargo has given the metadata of the manifest. -/
structure Asked (W : World) (a : Args) (config : SbomConfig) (md : CargoMetadata) : Prop where
  accepted : a.accepted = true
  resolved : W.resolveConfig a = .ok config
  metadata : ∃ m, W.locateManifest a = .ok m ∧ W.cargo m (metadataCommand a config) = .ok md

/-- The files written for all SBOMs, in order. -/
def allWrites (debug : Bool) : List GeneratedSbom → Res (List FileWrite)
  | [] => .ok []
  | s :: ss => do
    let ws ← writeToFiles debug s
    let rest ← allWrites debug ss
    .ok (ws ++ rest)

/-- The documents `plan` are the contents for the files `ws`, in order. -/
def PlanOf [F32Format] (W : World) (ws : List FileWrite) (plan : List (FPath × FileContent)) : Prop :=
  ws.map (fun w => (writeFile W.venv W.env.debug w).map fun c => (w.path, c)) =
    plan.map Except.ok

/-- The documents `plan` have been written in their order up to the `k`-th: the first `k` files are
whole, the next one may be damaged, the other files of the plan and all files outside of it are as
they were. -/
structure Progress (plan : List (FPath × FileContent)) (fs fs' : Files) (k : Nat) : Prop where
  bound : k ≤ plan.length
  done : ∀ i p c, i < k → plan[i]? = some (p, c) → fs' p = some (.whole c)
  current : ∀ p c, plan[k]? = some (p, c) → fs' p = fs p ∨ fs' p = some .torn
  later : ∀ i p c, k < i → plan[i]? = some (p, c) → fs' p = fs p
  others : ∀ q, (∀ c, (q, c) ∉ plan) → fs' q = fs q

/-- What a debug build asserts in addition to what a release build needs: the libraries accept what
they have rendered, no well-formed URL of a package starts like a BOM-Link, no package id has the form of the
reference of a target of a workspace member, and the workspace members are below the workspace root. -/
structure DebugOk (W : World) (md : CargoMetadata) (nodes : List Node) : Prop where
  agree : Agree W.env W.venv
  renders : RendersValid W.env
  links : ∀ p ∈ md.packages, ∀ u, some u ∈ urlFields p → W.env.uriValid u = true →
    ¬ ∃ r, u = "urn:cdx" ++ r
  ids : ∀ m ∈ md.workspaceMembers, ∀ n ∈ nodes, ∀ j : Nat,
    n.id ≠ m ++ " bin-target-" ++ toString j
  inside : ∀ p ∈ md.packages, p.id ∈ md.workspaceMembers →
    md.workspaceRoot <+: p.manifestPath.dropLast

end Cdx.Spec
