import Verif.Lemmas.Fields
import Verif.Lemmas.Targets

set_option linter.unusedSectionVars false
set_option linter.unusedSimpArgs false

namespace Cdx
open OMap

/-- The part of the file name after the stem and the kinds. -/
def nameTail (config : SbomConfig) : String :=
  (match config.getOutputOptions.platformSuffix with
   | .included => "_" ++ (config.target.map TargetPlatform.asStr).getD "" ++ ".cdx"
   | .notIncluded => match config.getOutputOptions.filename with
     | .crateName => ".cdx"
     | .custom _ => "") ++ "." ++ config.getFormat.display

/-- The stem of the file name. -/
def nameStem (config : SbomConfig) (dflt : String) : String :=
  match config.getOutputOptions.filename with
  | .crateName => dflt
  | .custom n => n

/-- The kinds in the file name. -/
def nameKinds (kinds : List String) : String :=
  if kinds.isEmpty then "" else "_" ++ joinStr "-" kinds

theorem filename_crate {debug : Bool} {s : GeneratedSbom}
    (hd : s.sbomConfig.describe.getD .crate = .crate) (ht : s.sbomConfig.target ≠ none) :
    filename debug s none [] = .ok (nameStem s.sbomConfig s.packageName ++ nameTail s.sbomConfig) := by
  unfold filename nameStem nameTail
  cases htt : s.sbomConfig.target with
  | none => exact absurd htt ht
  | some t =>
    simp only [hd, bind, Except.bind]
    cases s.sbomConfig.getOutputOptions.filename <;>
      cases s.sbomConfig.getOutputOptions.platformSuffix <;>
      simp [String.append_assoc]

theorem filename_artifact {debug : Bool} {s : GeneratedSbom} {n : String} {kinds : List String}
    (hd : s.sbomConfig.describe.getD .crate ≠ .crate) (ht : s.sbomConfig.target ≠ none) :
    filename debug s (some n) kinds =
      .ok (nameStem s.sbomConfig n ++ nameKinds kinds ++ nameTail s.sbomConfig) := by
  unfold filename nameStem nameTail nameKinds
  cases htt : s.sbomConfig.target with
  | none => exact absurd htt ht
  | some t =>
    generalize hdd : s.sbomConfig.describe.getD .crate = d at hd
    cases d with
    | crate => exact absurd rfl hd
    | binaries =>
      cases h1 : s.sbomConfig.getOutputOptions.filename <;>
        cases h2 : s.sbomConfig.getOutputOptions.platformSuffix <;>
        by_cases hk : kinds.isEmpty = true <;>
        simp [String.append_assoc, bind, Except.bind, hk, h1, h2]
    | allCargoTargets =>
      cases h1 : s.sbomConfig.getOutputOptions.filename <;>
        cases h2 : s.sbomConfig.getOutputOptions.platformSuffix <;>
        by_cases hk : kinds.isEmpty = true <;>
        simp [String.append_assoc, bind, Except.bind, hk, h1, h2]

/-- The selection of targets. -/
def selects (d : Describe) (kinds : List String) : Bool :=
  decide (d = .allCargoTargets) || (kinds.contains "bin" || kinds.contains "cdylib")

theorem artifactLoop_ok {bom : Bom} {m : Metadata} {top : Component} {kinds : TargetKinds}
    {d : Describe} (hd : d ≠ .crate) (l : List (List String × Component))
    (h : ∀ x ∈ l, kindsOf kinds x.2 = .ok x.1) :
    artifactLoop bom m top kinds d (l.map (·.2)) =
      .ok ((l.filter (fun x => selects d x.1)).map fun x => (artifactBom bom m top x.2, x.1)) := by
  induction l with
  | nil => rfl
  | cons x l ih =>
    have ih := ih (fun y hy => h y (List.mem_cons_of_mem _ hy))
    have hx := h x List.mem_cons_self
    have hsel : artifactSelected d x.1 = .ok (selects d x.1) := by
      unfold artifactSelected selects
      cases d with
      | crate => exact absurd rfl hd
      | binaries => simp
      | allCargoTargets => simp
    simp only [List.map_cons, artifactLoop, hx, hsel, ih, bind, Except.bind, List.filter_cons]
    split <;> rfl

theorem artifactWrites_ok {debug : Bool} {s : GeneratedSbom} {m : Metadata} {top : Component}
    (hd : s.sbomConfig.describe.getD .crate ≠ .crate) (ht : s.sbomConfig.target ≠ none)
    (l : List (List String × Component)) :
    artifactWrites debug s (l.map fun x => (artifactBom s.bom m top x.2, x.1)) =
      .ok (l.map fun x => fileWrite (artifactBom s.bom m top x.2)
        (s.manifestPath.withFileName
          (nameStem s.sbomConfig x.2.name ++ nameKinds x.1 ++ nameTail s.sbomConfig))
        s.sbomConfig) := by
  induction l with
  | nil => rfl
  | cons x l ih =>
    simp only [List.map_cons, artifactWrites, ih]
    simp only [artifactBom, bind, Except.bind, filename_artifact hd ht]

/-! ## Injectivity of the names -/

/-- The kinds cargo gives to binaries, libraries and procedural macros. -/
def cargoKinds : List String :=
  ["bin", "lib", "rlib", "dylib", "cdylib", "staticlib", "proc-macro"]

theorem kinds_join_cons (k : String) (ks : List String) :
    (joinStr "-" (k :: ks)).toList =
      k.toList ++ (if ks = [] then [] else '-' :: (joinStr "-" ks).toList) := by
  cases ks with
  | nil => simp [joinStr, List.intercalate]
  | cons a as => simp [joinStr, List.intercalate]

theorem kind_dash_prefix {k : String} (hk : k ∈ cargoKinds) (rest : List Char)
    (hrest : rest = [] ∨ ∃ r, rest = '-' :: r) :
    (k.toList ++ rest).takeWhile (· ≠ '-') = k.toList.takeWhile (· ≠ '-') := by
  simp only [cargoKinds, List.mem_cons, List.not_mem_nil, or_false] at hk
  rcases hrest with rfl | ⟨r, rfl⟩
  · simp
  · rcases hk with rfl | rfl | rfl | rfl | rfl | rfl | rfl <;> rfl

theorem kind_of_prefix : ∀ k ∈ cargoKinds, ∀ k' ∈ cargoKinds,
    k.toList.takeWhile (· ≠ '-') = k'.toList.takeWhile (· ≠ '-') → k = k' := by decide

theorem join_kinds_inj : ∀ (ks ks' : List String), (∀ k ∈ ks, k ∈ cargoKinds) →
    (∀ k ∈ ks', k ∈ cargoKinds) → joinStr "-" ks = joinStr "-" ks' → ks = ks'
  | [], [], _, _, _ => rfl
  | [], k' :: ks', _, h', h => by
    have := congrArg String.toList h
    rw [kinds_join_cons] at this
    have hk := h' k' List.mem_cons_self
    have he : k'.toList = [] := by
      have h0 : (joinStr "-" []).toList = [] := rfl
      rw [h0] at this
      exact (List.append_eq_nil_iff.1 this.symm).1
    have : ∀ k ∈ cargoKinds, k.toList ≠ [] := by decide
    exact absurd he (this _ hk)
  | k :: ks, [], h', _, h => by
    have := congrArg String.toList h
    rw [kinds_join_cons] at this
    have hk := h' k List.mem_cons_self
    have he : k.toList = [] := by
      have h0 : (joinStr "-" []).toList = [] := rfl
      rw [h0] at this
      exact (List.append_eq_nil_iff.1 this).1
    have : ∀ k ∈ cargoKinds, k.toList ≠ [] := by decide
    exact absurd he (this _ hk)
  | k :: ks, k' :: ks', hl, hl', h => by
    have h := congrArg String.toList h
    rw [kinds_join_cons, kinds_join_cons] at h
    have hk := hl k List.mem_cons_self
    have hk' := hl' k' List.mem_cons_self
    have e1 := kind_dash_prefix hk (if ks = [] then [] else '-' :: (joinStr "-" ks).toList)
      (by split; exact .inl rfl; exact .inr ⟨_, rfl⟩)
    have e2 := kind_dash_prefix hk' (if ks' = [] then [] else '-' :: (joinStr "-" ks').toList)
      (by split; exact .inl rfl; exact .inr ⟨_, rfl⟩)
    have e := kind_of_prefix k hk k' hk' (e1.symm.trans ((congrArg _ h).trans e2))
    subst e
    rw [List.append_cancel_left_eq] at h
    by_cases a : ks = []
    · by_cases b : ks' = []
      · rw [a, b]
      · rw [if_pos a, if_neg b] at h; cases h
    · by_cases b : ks' = []
      · rw [if_neg a, if_pos b] at h; cases h
      · rw [if_neg a, if_neg b] at h
        have := join_kinds_inj ks ks' (fun x hx => hl x (List.mem_cons_of_mem _ hx))
          (fun x hx => hl' x (List.mem_cons_of_mem _ hx))
          (String.toList_inj.1 (List.cons.inj h).2)
        rw [this]

theorem join_kinds_no_underscore (ks : List String) (h : ∀ k ∈ ks, k ∈ cargoKinds) :
    '_' ∉ (joinStr "-" ks).toList := by
  induction ks with
  | nil => simp [joinStr, List.intercalate]
  | cons k ks ih =>
    rw [kinds_join_cons, List.mem_append]
    rintro (hm | hm)
    · have : ∀ k ∈ cargoKinds, '_' ∉ k.toList := by decide
      exact this k (h k List.mem_cons_self) hm
    · split at hm
      · cases hm
      · rcases List.mem_cons.1 hm with e | e
        · exact absurd e (by decide)
        · exact ih (fun x hx => h x (List.mem_cons_of_mem _ hx)) e

theorem artifact_name_inj {n n' t : String} {ks ks' : List String}
    (hk : ks ≠ []) (hk' : ks' ≠ []) (h : ∀ k ∈ ks, k ∈ cargoKinds)
    (h' : ∀ k ∈ ks', k ∈ cargoKinds)
    (e : n ++ nameKinds ks ++ t = n' ++ nameKinds ks' ++ t) : n = n' ∧ ks = ks' := by
  have e := congrArg String.toList e
  simp only [String.toList_append, List.append_cancel_right_eq] at e
  have hu : ∀ l : List String, l ≠ [] → (nameKinds l).toList = '_' :: (joinStr "-" l).toList := by
    intro l hl
    unfold nameKinds
    rw [if_neg (by simpa using hl)]
    simp
  rw [hu ks hk, hu ks' hk'] at e
  obtain ⟨e1, e2⟩ := split_last_inj e (join_kinds_no_underscore ks h)
    (join_kinds_no_underscore ks' h')
  exact ⟨String.toList_inj.1 e1, join_kinds_inj ks ks' h h' (String.toList_inj.1 e2)⟩

end Cdx
