import Verif.Lemmas.Args
import Verif.Props.Run

/-!
# C92: the command line
-/

namespace Cdx.Props

open Cdx.Spec

/-- C92: exactly which command lines are accepted, and what they mean. The first argument is the name
of the program, the second the name that cargo passes on; the others spell options, which mean `a`. -/
theorem C92_exact {argv : List String} {a : Args} : parseCommandLine argv = some a ↔
    ∃ p ws gs, argv = p :: "cyclonedx" :: ws ∧ Spelled gs ws ∧ Means gs a ∧ ¬ Conflict a := by
  constructor
  · intro h
    unfold parseCommandLine at h
    split at h
    · rename_i p ws
      obtain ⟨gs, h1, h⟩ := Option.bind_eq_some_iff.1 h
      obtain ⟨a', h2, h⟩ := Option.bind_eq_some_iff.1 h
      split at h
      · cases h
        exact ⟨p, ws, gs, rfl, readArguments_iff.1 h1, argsOf_iff.1 h2, accepted_iff.1 ‹_›⟩
      · cases h
    · cases h
  · rintro ⟨p, ws, gs, rfl, h1, h2, h3⟩
    show (readArguments none ws).bind _ = _
    rw [readArguments_iff.2 h1, Option.bind_some, argsOf_iff.2 h2, Option.bind_some,
      if_pos (accepted_iff.2 h3)]

/-- C92: the order of the options does not matter, nor does their spelling, apart from the order of the
values of an option that may be repeated. -/
theorem C92_order {p p' : String} {ws ws' : List String} {gs gs' : List (Opt × String)}
    (h : Spelled gs ws) (h' : Spelled gs' ws') (hp : gs.Perm gs')
    (hl : ∀ o ∈ repeatable, listed gs o = listed gs' o) :
    parseCommandLine (p :: "cyclonedx" :: ws) = parseCommandLine (p' :: "cyclonedx" :: ws') := by
  have key : ∀ {gs gs' : List (Opt × String)}, gs.Perm gs' →
      (∀ o ∈ repeatable, listed gs o = listed gs' o) → ∀ a, Means gs a → Means gs' a := by
    intro gs gs' hp hl a m
    have hm : ∀ x, x ∈ gs' ↔ x ∈ gs := fun x => hp.mem_iff.symm
    have hs : ∀ o, Switched gs' o ↔ Switched gs o := fun o => exists_congr fun v => hm _
    constructor
    case once => intro o ho; rw [← (hp.filter _).length_eq]; exact m.once o ho
    case manifestPath => intro v; rw [hm]; exact m.manifestPath v
    case manifestPathGiven => exact m.manifestPathGiven
    case format => intro v; rw [hm]; exact m.format v
    case describe => intro v; rw [hm]; exact m.describe v
    case target => intro v; rw [hm]; exact m.target v
    case filenameOverride => intro v; rw [hm]; exact m.filenameOverride v
    case specVersion => intro v; rw [hm]; exact m.specVersion v
    case allFeatures => rw [hs]; exact m.allFeatures
    case noDefaultFeatures => rw [hs]; exact m.noDefaultFeatures
    case targetInFilename => rw [hs]; exact m.targetInFilename
    case all => rw [hs]; exact m.all
    case topLevel => rw [hs]; exact m.topLevel
    case licenseStrict => rw [hs]; exact m.licenseStrict
    case noBuildDeps => rw [hs]; exact m.noBuildDeps
    case verbose => rw [← hl _ (by decide)]; exact m.verbose
    case quiet => rw [← hl _ (by decide)]; exact m.quiet
    case features => rw [← hl _ (by decide)]; exact m.features
    case licenseAcceptNamed => rw [← hl _ (by decide)]; exact m.licenseAcceptNamed
  have key2 : ∀ {p p' : String} {ws ws' : List String} {gs gs' : List (Opt × String)}, Spelled gs ws →
      Spelled gs' ws' → gs.Perm gs' → (∀ o ∈ repeatable, listed gs o = listed gs' o) → ∀ a,
      parseCommandLine (p :: "cyclonedx" :: ws) = some a →
        parseCommandLine (p' :: "cyclonedx" :: ws') = some a := by
    intro p p' ws ws' gs gs' h h' hp hl a ha
    obtain ⟨_, _, gs₀, e, h1, h2, h3⟩ := C92_exact.1 ha
    cases e
    have : gs₀ = gs := Option.some.inj ((readArguments_iff.2 h1).symm.trans (readArguments_iff.2 h))
    subst this
    exact C92_exact.2 ⟨_, _, gs', rfl, h', key hp hl a h2, h3⟩
  refine Option.ext fun a => ⟨key2 h h' hp hl a, key2 h' h hp.symm (fun o ho => (hl o ho).symm) a⟩

/-- An option that does not exist makes the command line unacceptable, wherever it is. -/
theorem C92_unknown {p n : String} {ws : List String} (hn : ∀ c ∈ n.toList, c ≠ '=')
    (hu : ∀ e ∈ options, e.2.1 ≠ n) (hw : ("--" ++ n) ∈ ws) :
    parseCommandLine (p :: "cyclonedx" :: ws) = none := by
  have dash : ∀ l : List Char, ("--" ++ n).toList = '-' :: l → l.head? = some '-' := by
    intro l h
    rw [String.toList_append] at h
    cases h
    rfl
  have key : ∀ {gs : List (Opt × String)} {ws : List String}, Spelled gs ws → ("--" ++ n) ∉ ws := by
    intro gs ws h
    have isv : ∀ v, IsValue v → "--" ++ n ≠ v := by
      rintro v hv rfl
      refine hv '-' n.toList ?_
      rw [String.toList_append]; rfl
    have lets : ∀ (l : List Char), l.head? ≠ some '-' → "--" ++ n ≠ String.ofList ('-' :: l) := by
      intro l hl e
      exact hl (dash l (by rw [e, String.toList_ofList]))
    have first : ∀ {fs : List (Opt × String)} {cs : List Char} {o m c l}, Letters fs cs →
        (o, m, some c, true) ∈ options → (cs ++ c :: l).head? ≠ some '-' := by
      intro fs cs o m c l h ho
      exact letters_head h (short_ne_dash (option_unique ho).2.1.symm)
    have cancel : ∀ m : String, "--" ++ n = "--" ++ m → n = m := by
      intro m e
      have := congrArg String.toList e
      rw [String.toList_append, String.toList_append] at this
      rw [← String.ofList_toList (s := n), List.append_cancel_left this, String.ofList_toList]
    induction h with
    | nil => exact List.not_mem_nil
    | flag ho _ ih =>
      intro hm
      rcases List.mem_cons.1 hm with e | hm
      · exact hu _ ho (cancel _ e).symm
      · exact ih hm
    | @equals o m s v gs ws ho _ ih =>
      intro hm
      rcases List.mem_cons.1 hm with e | hm
      · rw [String.append_assoc, String.append_assoc] at e
        refine hn '=' ?_ rfl
        rw [cancel _ e]
        simp
      · exact ih hm
    | next ho hv _ ih =>
      intro hm
      rcases List.mem_cons.1 hm with e | hm
      · exact hu _ ho (cancel _ e).symm
      · rcases List.mem_cons.1 hm with e | hm
        · exact isv _ hv e
        · exact ih hm
    | @letters fs cs gs ws hl hne _ ih =>
      intro hm
      rcases List.mem_cons.1 hm with e | hm
      · refine lets cs ?_ e
        cases cs with
        | nil => exact absurd rfl hne
        | cons c cs => simpa using hl.first
      · exact ih hm
    | lettersEquals hl ho _ ih =>
      intro hm
      rcases List.mem_cons.1 hm with e | hm
      · exact lets _ (first hl ho) e
      · exact ih hm
    | lettersJoined hl ho _ _ _ ih =>
      intro hm
      rcases List.mem_cons.1 hm with e | hm
      · exact lets _ (first hl ho) e
      · exact ih hm
    | lettersNext hl ho hv _ ih =>
      intro hm
      rcases List.mem_cons.1 hm with e | hm
      · exact lets _ (first hl ho) e
      · rcases List.mem_cons.1 hm with e | hm
        · exact isv _ hv e
        · exact ih hm
  cases h : parseCommandLine (p :: "cyclonedx" :: ws) with
  | none => rfl
  | some a =>
    obtain ⟨_, _, gs, e, h1, _, _⟩ := C92_exact.1 h
    cases e
    exact absurd hw (key h1)

/-! ## Every setting can be asked for -/

private theorem spelled_append {gs gs' : List (Opt × String)} {ws ws' : List String} (h : Spelled gs ws)
    (h' : Spelled gs' ws') : Spelled (gs ++ gs') (ws ++ ws') := by
  induction h with
  | nil => exact h'
  | flag ho _ ih => exact .flag ho ih
  | equals ho _ ih => exact .equals ho ih
  | next ho hv _ ih => exact .next ho hv ih
  | letters hl hne _ ih => rw [List.append_assoc]; exact .letters hl hne ih
  | lettersEquals hl ho _ ih => rw [List.append_assoc]; exact .lettersEquals hl ho ih
  | lettersJoined hl ho h1 h2 _ ih => rw [List.append_assoc]; exact .lettersJoined hl ho h1 h2 ih
  | lettersNext hl ho hv _ ih => rw [List.append_assoc]; exact .lettersNext hl ho hv ih

/-- The options that `spelling` gives. -/
private def settings (a : Args) : List (Opt × String) :=
  let value (o : Opt) (x : Option String) : List (Opt × String) := x.toList.map fun v => (o, v)
  let flag (o : Opt) (b : Bool) : List (Opt × String) := if b then [(o, "")] else []
  value .manifestPath a.manifestPath ++ value .format (a.format.map formatText) ++
  value .describe (a.describe.map describeText) ++ List.replicate a.verbose (.verbose, "") ++
  List.replicate a.quiet (.quiet, "") ++ flag .allFeatures a.allFeatures ++
  flag .noDefaultFeatures a.noDefaultFeatures ++ a.features.map (fun v => (.features, v)) ++
  value .target a.target ++ flag .targetInFilename a.targetInFilename ++ flag .all a.all ++
  flag .topLevel a.topLevel ++ value .filenameOverride a.filenameOverride ++
  flag .licenseStrict a.licenseStrict ++ a.licenseAcceptNamed.map (fun v => (.licenseAcceptNamed, v)) ++
  value .specVersion (a.specVersion.map versionText) ++ flag .noBuildDeps a.noBuildDeps

private theorem spelled_values {o : Opt} {n : String} {s : Option Char} (ho : (o, n, s, true) ∈ options)
    (l : List String) : Spelled (l.map fun v => (o, v)) (l.map fun v => "--" ++ n ++ "=" ++ v) := by
  induction l with
  | nil => exact .nil
  | cons v l ih => exact .equals ho ih

private theorem spelled_flags {o : Opt} {n : String} {s : Option Char} (ho : (o, n, s, false) ∈ options)
    (k : Nat) : Spelled (List.replicate k (o, "")) (List.replicate k ("--" ++ n)) := by
  induction k with
  | zero => exact .nil
  | succ k ih => exact .flag ho ih

private theorem spelled_flag {o : Opt} {n : String} {s : Option Char} (ho : (o, n, s, false) ∈ options)
    (b : Bool) : Spelled (if b then [(o, "")] else []) (if b then ["--" ++ n] else []) := by
  cases b
  · exact .nil
  · exact .flag ho .nil

private theorem spelled_settings (a : Args) : Spelled (settings a) (spelling a) := by
  unfold settings spelling
  have h1 := spelled_values (o := .features) (n := "features") (s := some 'F') (by decide) a.features
  have h2 := spelled_values (o := .licenseAcceptNamed) (n := "license-accept-named") (s := none)
    (by decide) a.licenseAcceptNamed
  refine spelled_append (spelled_append (spelled_append (spelled_append (spelled_append (spelled_append
    (spelled_append (spelled_append (spelled_append (spelled_append (spelled_append (spelled_append
    (spelled_append (spelled_append (spelled_append (spelled_append
    ?_ ?_) ?_) ?_) ?_) ?_) ?_) h1) ?_) ?_) ?_) ?_) ?_) ?_) h2) ?_) ?_
  · exact spelled_values (s := none) (by decide) _
  · exact spelled_values (s := some 'f') (by decide) _
  · exact spelled_values (s := none) (by decide) _
  · exact spelled_flags (n := "verbose") (s := some 'v') (by decide) _
  · exact spelled_flags (n := "quiet") (s := some 'q') (by decide) _
  · exact spelled_flag (s := none) (by decide) _
  · exact spelled_flag (s := none) (by decide) _
  · exact spelled_values (s := none) (by decide) _
  · exact spelled_flag (s := none) (by decide) _
  · exact spelled_flag (s := some 'a') (by decide) _
  · exact spelled_flag (s := none) (by decide) _
  · exact spelled_values (s := none) (by decide) _
  · exact spelled_flag (s := none) (by decide) _
  · exact spelled_values (s := none) (by decide) _
  · exact spelled_flag (s := none) (by decide) _

private theorem listed_append (l r : List (Opt × String)) (o : Opt) :
    listed (l ++ r) o = listed l o ++ listed r o := by unfold listed; simp

private theorem listed_values (l : List String) (o o' : Opt) :
    listed (l.map fun v => (o, v)) o' = if o = o' then l else [] := by
  unfold listed
  induction l with
  | nil => split <;> rfl
  | cons v l ih =>
    by_cases h : o = o'
    · rw [if_pos h] at ih
      simp only [List.map_cons, List.filter_cons, h, decide_true, if_true]
      rw [h] at ih
      rw [ih]
    · rw [if_neg h] at ih
      simp only [List.map_cons, List.filter_cons, h, decide_false, Bool.false_eq_true, if_false]
      exact ih

private theorem listed_flags (k : Nat) (o o' : Opt) :
    listed (List.replicate k (o, "")) o' = if o = o' then List.replicate k "" else [] := by
  have := listed_values (List.replicate k "") o o'
  rw [List.map_replicate] at this
  exact this

private theorem listed_flag (b : Bool) (o o' : Opt) :
    listed (if b then [(o, "")] else []) o' = if o = o' then (if b then [""] else []) else [] := by
  cases b
  · simp [listed]
  · exact listed_flags 1 o o'

private theorem means_settings {a : Args} (hm : a.manifestPath ≠ some "") (hv : a.verbose ≤ 255)
    (hq : a.quiet ≤ 255) : Means (settings a) a := by
  have key : ∀ o, listed (settings a) o = match o with
      | .manifestPath => a.manifestPath.toList
      | .format => (a.format.map formatText).toList
      | .describe => (a.describe.map describeText).toList
      | .verbose => List.replicate a.verbose ""
      | .quiet => List.replicate a.quiet ""
      | .allFeatures => if a.allFeatures then [""] else []
      | .noDefaultFeatures => if a.noDefaultFeatures then [""] else []
      | .features => a.features
      | .target => a.target.toList
      | .targetInFilename => if a.targetInFilename then [""] else []
      | .all => if a.all then [""] else []
      | .topLevel => if a.topLevel then [""] else []
      | .filenameOverride => a.filenameOverride.toList
      | .licenseStrict => if a.licenseStrict then [""] else []
      | .licenseAcceptNamed => a.licenseAcceptNamed
      | .specVersion => (a.specVersion.map versionText).toList
      | .noBuildDeps => if a.noBuildDeps then [""] else [] := by
    intro o
    unfold settings
    simp only [listed_append, listed_values, listed_flags, listed_flag]
    cases o <;> simp
  have val : ∀ (o : Opt) (x : Option String), listed (settings a) o = x.toList →
      ∀ v, (o, v) ∈ settings a ↔ x = some v := by
    intro o x h v
    rw [← mem_listed, h]
    cases x <;> simp [eq_comm]
  have flg : ∀ (o : Opt) (b : Bool), (listed (settings a) o = if b then [""] else []) →
      (Switched (settings a) o ↔ b = true) := by
    intro o b h
    unfold Switched
    simp only [← mem_listed, h]
    cases b <;> simp
  constructor
  case once =>
    intro o ho
    rw [← listed_length, key o]
    cases o
    case verbose => exact absurd (by decide) ho
    case quiet => exact absurd (by decide) ho
    case features => exact absurd (by decide) ho
    case licenseAcceptNamed => exact absurd (by decide) ho
    all_goals dsimp only
    case manifestPath => cases a.manifestPath <;> simp
    case format => cases a.format <;> simp
    case describe => cases a.describe <;> simp
    case target => cases a.target <;> simp
    case filenameOverride => cases a.filenameOverride <;> simp
    case specVersion => cases a.specVersion <;> simp
    all_goals (split <;> simp)
  case manifestPath => exact val _ _ (key _)
  case manifestPathGiven => exact hm
  case format => exact val _ _ (key _)
  case describe => exact val _ _ (key _)
  case target => exact val _ _ (key _)
  case filenameOverride => exact val _ _ (key _)
  case specVersion => exact val _ _ (key _)
  case allFeatures => exact flg _ _ (key _)
  case noDefaultFeatures => exact flg _ _ (key _)
  case targetInFilename => exact flg _ _ (key _)
  case all => exact flg _ _ (key _)
  case topLevel => exact flg _ _ (key _)
  case licenseStrict => exact flg _ _ (key _)
  case noBuildDeps => exact flg _ _ (key _)
  case verbose => rw [key]; simp; omega
  case quiet => rw [key]; simp; omega
  case features => rw [key]
  case licenseAcceptNamed => rw [key]

/-- C92: all settings that do not conflict can be asked for, and `spelling` says how. -/
theorem C92_every {a : Args} {p : String} (hc : ¬ Conflict a) (hm : a.manifestPath ≠ some "")
    (hv : a.verbose ≤ 255) (hq : a.quiet ≤ 255) :
    parseCommandLine (p :: "cyclonedx" :: spelling a) = some a :=
  C92_exact.2 ⟨_, _, _, rfl, spelled_settings a, means_settings hm hv hq, hc⟩

/-- C92: a run with a command line that is not accepted changes no file and does not succeed. -/
theorem C92_refused [F32Format] {W : World} {argv : List String} (h : parseCommandLine argv = none)
    {fs fs' : Files} {e : Exit} (hr : Runs (commandProgram W argv) fs fs' e) : fs' = fs ∧ e ≠ .success := by
  unfold commandProgram at hr
  rw [h] at hr
  cases hr with
  | fault => exact ⟨rfl, nofun⟩
  | stop => exact ⟨rfl, nofun⟩

/-- C92: a run with an accepted command line does what the other theorems say about its settings. -/
theorem C92_accepted [F32Format] {W : World} {argv : List String} {a : Args}
    (h : parseCommandLine argv = some a) : commandProgram W argv = mainProgram W a := by
  unfold commandProgram
  rw [h]

/-- How much is logged: nothing, errors, warnings, and so on. -/
def amount : LevelFilter → Nat
  | .off => 0
  | .error => 1
  | .warn => 2
  | .info => 3
  | .debug => 4
  | .trace => 5

/-- C92: warnings are shown, and one level more for each `-v`; with `-qq` nothing is shown. -/
theorem C92_logging (a : Args) :
    (a.quiet < 2 → amount (logLevel a) = min 5 (2 + a.verbose)) ∧ (2 ≤ a.quiet → amount (logLevel a) = 0) := by
  unfold logLevel
  constructor
  · intro h
    rw [if_neg (by omega)]
    match a.verbose with
    | 0 => rfl
    | 1 => rfl
    | 2 => rfl
    | n + 3 => simp only [amount]; omega
  · intro h
    rw [if_pos h]
    rfl

/-- Non-vacuity: a command line with most kinds of spellings, one with an option that is repeated, one
with options that conflict, and one with an unknown format. -/
example :
    parseCommandLine ["cargo-cyclonedx", "cyclonedx", "-avvfjson", "--features", "a b", "-F=c", "--target=all",
        "--spec-version", "1.5", "-q"] =
      some { format := some .json, all := true, verbose := 2, features := ["a b", "c"],
             target := some "all", specVersion := some .v1_5, quiet := 1 } ∧
    parseCommandLine ["cargo-cyclonedx", "cyclonedx", "-a", "--all"] = none ∧
    parseCommandLine ["cargo-cyclonedx", "cyclonedx", "-a", "--top-level"] = none ∧
    parseCommandLine ["cargo-cyclonedx", "cyclonedx", "-f", "yaml"] = none := by
  decide +kernel

/-- Non-vacuity: these arguments spell these options. -/
example : Spelled [(.all, ""), (.verbose, ""), (.format, "json"), (.target, "x")] ["-avfjson", "--target", "x"] :=
  .lettersJoined (fs := [(.all, ""), (.verbose, "")]) (cs := ['a', 'v']) (n := "format") (c := 'f')
    (v := "json") (.cons (n := "all") (by decide) (.cons (n := "verbose") (by decide) .nil)) (by decide)
    (by decide) (by decide) (.next (o := .target) (n := "target") (s := none) (v := "x") (by decide)
      (fun c l h => absurd h (by simp)) .nil)

end Cdx.Props
