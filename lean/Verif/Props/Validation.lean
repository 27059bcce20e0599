import Verif.Lemmas.Builder
import Verif.Lemmas.Base64

/-!
# Properties of validation (C24–C29, C36–C38, C45)

Specifications: `Spec/Builder.lean` (what a sequence of checks reports), `Spec/Refs.lean` (the
`bom-ref`s of a BOM), `Spec/Elements.lean` (the elements of a BOM, their parts and rules),
`Spec/Checks.lean` (formats).
-/

namespace Cdx.Props

open Spec

/-! ## C24: a validation passes iff nothing in it failed -/

/-- A sequence of checks under distinct names ends without panic; it has errors iff one of the
checks failed; and under each name exactly the report of its check is found. -/
theorem C24_reports_exactly_the_failures {steps : List VStep}
    {reports : List (String × Option ErrorsKind)} (h : Performs steps reports)
    (nd : (reports.map (·.1)).Nodup) :
    ∃ r, chain steps = .ok r ∧
      (r.hasErrors = true ↔ ∃ p ∈ reports, p.2 ≠ none) ∧
      (r.passed = true ↔ ∀ p ∈ reports, p.2 = none) ∧
      (∀ p ∈ reports, r.error? p.1 = p.2) ∧
      (∀ n, n ∉ reports.map (·.1) → r.error? n = none) ∧
      r.map (·.1) = (reports.filter (·.2.isSome)).map (·.1) := by
  refine ⟨entries reports, Performs.chain h nd, ?_, ?_, ?_, ?_, ?_⟩
  · have := entries_eq_nil (specs := reports)
    unfold VResult.hasErrors
    rw [Bool.not_eq_true', ← Bool.not_eq_true, List.isEmpty_iff, this]
    simp
  · unfold VResult.passed
    rw [List.isEmpty_iff, entries_eq_nil]
  · rintro ⟨n, k⟩ hp
    exact lookup_entries nd hp
  · intro n hn
    exact lookup_entries_none hn
  · clear h nd
    induction reports with
    | nil => rfl
    | cons p reports ih =>
      show ((p.2.map (p.1, ·)).toList ++ entries reports).map (·.1) = _
      rw [List.map_append, ih]
      cases hk : p.2 <;> simp [hk]

/-- Every builder call on values whose nested validations end without panic performs a check, so
that the theorem above applies to it. -/
theorem C24_every_call_performs {α : Type} [DecidableEq α] (n : String) (x : α) (ox : Option α)
    (xs : List α) (oxs : Option (List α)) (c : α → Check) (f : α → Res VResult)
    (hf : ∀ x, ∃ r, f x = .ok r) :
    (∃ k, Performed (addField n x c) n k) ∧ (∃ k, Performed (addFieldOption n ox c) n k) ∧
    (∃ k, Performed (addEnum n x c) n k) ∧ (∃ k, Performed (addEnumOption n ox c) n k) ∧
    (∃ k, Performed (addStruct n x f) n k) ∧ (∃ k, Performed (addStructOption n ox f) n k) ∧
    (∃ k, Performed (addList n xs f) n k) ∧ (∃ k, Performed (addListOption n oxs f) n k) ∧
    (∃ k, Performed (addUniqueList n xs f) n k) ∧
    (∃ k, Performed (addUniqueListOption n oxs f) n k) := by
  have h1 : ∀ x, ∃ k, Performed (addField n x c) n k := fun x => by
    cases h : c x with
    | ok u => exact ⟨_, .fieldOk h⟩
    | error e => exact ⟨_, .fieldFailed h⟩
  have h2 : ∀ x, ∃ k, Performed (addEnum n x c) n k := fun x => by
    cases h : c x with
    | ok u => exact ⟨_, .enumOk h⟩
    | error e => exact ⟨_, .enumFailed h⟩
  have h3 : ∀ x, ∃ k, Performed (addStruct n x f) n k := fun x => by
    obtain ⟨r, hr⟩ := hf x
    by_cases h : r = []
    · exact ⟨_, .structOk (h ▸ hr)⟩
    · exact ⟨_, .structFailed hr h⟩
  have h4 : ∀ xs : List α, ∃ k, Performed (addList n xs f) n k := fun xs =>
    Performed.exists_list n xs f fun x _ => hf x
  have h5 : ∀ xs : List α, ∃ k, Performed (addUniqueList n xs f) n k := fun xs =>
    Performed.exists_unique n xs f fun x _ => hf x
  refine ⟨h1 x, ?_, h2 x, ?_, h3 x, ?_, h4 xs, ?_, h5 xs, ?_⟩
  · cases ox with
    | none => exact ⟨_, .fieldAbsent⟩
    | some x => exact ⟨_, .fieldPresent (h1 x).choose_spec⟩
  · cases ox with
    | none => exact ⟨_, .enumAbsent⟩
    | some x => exact ⟨_, .enumPresent (h2 x).choose_spec⟩
  · cases ox with
    | none => exact ⟨_, .structAbsent⟩
    | some x => exact ⟨_, .structPresent (h3 x).choose_spec⟩
  · cases oxs with
    | none => exact ⟨_, .listAbsent⟩
    | some x => exact ⟨_, .listPresent (h4 x).choose_spec⟩
  · cases oxs with
    | none => exact ⟨_, .uniqueAbsent⟩
    | some x => exact ⟨_, .uniquePresent (h5 x).choose_spec⟩

/-- Field checks under one and the same name accumulate: all messages, in order. -/
theorem C24_repeated_field (n : String) (cs : List Check) :
    chain (cs.map fun c => addField n () fun _ => c) =
      .ok (match cs.filterMap fun c => match c with | .ok () => none | .error e => some e with
        | [] => []
        | es => [(n, .field es)]) := by
  have key : ∀ (cs : List Check) (done : List String),
      (cs.map fun c => addField n () fun _ => c).foldlM (fun st s => s st)
        (match done with | [] => [] | es => [(n, ErrorsKind.field es)]) =
      (.ok (match done ++ cs.filterMap fun c => match c with | .ok () => none | .error e => some e with
        | [] => []
        | es => [(n, .field es)]) : Res VResult) := by
    intro cs
    induction cs with
    | nil => intro done; simp [pure, Except.pure]
    | cons c cs ih =>
      intro done
      rw [List.map_cons, List.foldlM_cons]
      match c with
      | .ok () =>
        simp only [addField, bind, Except.bind, List.filterMap_cons]
        exact ih done
      | .error e =>
        have : (addField n () (fun _ => (.error e : Check))
            (match done with | [] => [] | es => [(n, ErrorsKind.field es)])) =
            .ok (match done ++ [e] with | [] => [] | es => [(n, ErrorsKind.field es)]) := by
          cases done with
          | nil => simp [addField, VResult.addField]
          | cons d done => simp [addField, VResult.addField, List.lookup, VResult.insert]
        rw [this]
        simp only [bind, Except.bind, List.filterMap_cons]
        have := ih (done ++ [e])
        simpa using this
  exact key cs []

/-- Non-vacuity: three checks, of which the second and third fail. -/
example : Performs
    [addField "a" 1 (fun _ => .ok ()), addEnum "b" 2 (fun _ => .error "bad"),
     addList "c" [1, 2, 3] (fun i => if i = 2 then .ok [("x", .enum "no")] else .ok [])]
    [("a", none), ("b", some (.enum "bad")), ("c", some (.list [(1, [("x", .enum "no")])]))] :=
  .cons (.fieldOk rfl) (.cons (.enumFailed rfl) (.cons
    (.listFailed (rs := [[], [("x", .enum "no")], []]) rfl
      ⟨by decide, by
        intro i r
        match i with
        | 0 => simp
        | 1 => simp; constructor
               · rintro rfl; simp
               · rintro ⟨rfl, _⟩; rfl
        | 2 => simp
        | n + 3 => simp⟩ (by simp)) .nil))

example : chain [addField "a" 1 (fun _ => .ok ()), addEnum "b" 2 (fun _ => .error "bad"),
     addList "c" [1, 2, 3] (fun i => if i = 2 then .ok [("x", .enum "no")] else .ok [])] =
    .ok [("b", .enum "bad"), ("c", .list [(1, [("x", .enum "no")])])] := rfl

/-! ## C25: validation never panics -/

/-- Validating a BOM as any version ends without panic. -/
theorem C25_bom_validation_never_panics (E : VEnv) (v : SpecVersion) (b : Bom) :
    ∃ r, b.validateVersion E v = .ok r := (Elem.good E v (.bom b)).1

/-- Nor does validating a BOM as its own version. -/
theorem C25_validate_never_panics (E : VEnv) (b : Bom) : ∃ r, b.validate E = .ok r :=
  C25_bom_validation_never_panics E b.specVersion b

/-- Nor does validating any element of a BOM on its own. -/
theorem C25_element_validation_never_panics (E : VEnv) (v : SpecVersion) (e : Elem) :
    ∃ r, e.outcome E v = .ok r := (Elem.good E v e).1

/-- The builder itself can panic, so the theorems above are not trivial: two failing enumeration
checks under the same name. -/
example : chain [addEnum "a" 1 (fun _ => .error "x"), addEnum "a" 2 (fun _ => .error "y")] =
    .error (.panic "Attempt to replace non-empty enum entry") := rfl

/-! ## C26: list errors point at the offending elements -/

/-- The report of a list lists, in increasing order, exactly the positions of the elements that
have errors, each with the element's own report; there is no report iff there is no such
element. -/
theorem C26_list_errors {α : Type} (n : String) (xs : List α) (f : α → Res VResult)
    (hf : ∀ x ∈ xs, ∃ r, f x = .ok r) :
    ∃ r, chain [addList n xs f] = .ok r ∧
      ((r.error? n = none ∧ ∀ x ∈ xs, f x = .ok []) ∨
       ∃ errs, r.error? n = some (.list errs) ∧ (errs.map (·.1)).Pairwise (· < ·) ∧
        ∀ i e, (i, e) ∈ errs ↔ ∃ x, xs[i]? = some x ∧ f x = .ok e ∧ e ≠ []) := by
  obtain ⟨k, hk⟩ := Performed.exists_list n xs f hf
  obtain ⟨rs, h1, h2⟩ := mapM_validate hf
  have hr := reports_listResults n rs [] rfl
  have hc : chain [addList n xs f] = .ok ([] ++ ((listKind (numbered rs)).map (n, ·)).toList) := by
    simp only [chain, List.foldlM_cons, List.foldlM_nil]
    rw [show addList n xs f = addListResults n (.ok rs) by unfold addList; rw [h1], hr]
    rfl
  refine ⟨_, hc, ?_⟩
  by_cases hn : numbered rs = []
  · left
    refine ⟨by simp [listKind, hn, VResult.error?], (all_ok_nil h2).mp ((numbered_eq_nil rs).mp hn)⟩
  · right
    refine ⟨numbered rs, by simp [listKind, hn, VResult.error?, List.lookup],
      (numbered_entries rs).1, fun i e => ?_⟩
    rw [(numbered_entries rs).2]
    have hi : (xs[i]?).map f = (rs[i]?).map .ok := by
      rw [← List.getElem?_map, ← List.getElem?_map, h2]
    constructor
    · rintro ⟨ha, hb⟩
      rw [ha] at hi
      obtain ⟨x, hx, hfx⟩ := Option.map_eq_some_iff.mp hi
      exact ⟨x, hx, hfx, hb⟩
    · rintro ⟨x, hx, hfx, hb⟩
      rw [hx] at hi
      simp only [Option.map_some, hfx] at hi
      obtain ⟨r, hr, he⟩ := Option.map_eq_some_iff.mp hi.symm
      rw [hr, Except.ok.inj he]
      exact ⟨rfl, hb⟩

/-- Non-vacuity: the second and fourth element fail. -/
example : chain [addList "l" [0, 1, 2, 3] fun i => .ok (if i % 2 = 0 then [] else [("f", .enum "e")])] =
    .ok [("l", .list [(1, [("f", .enum "e")]), (3, [("f", .enum "e")])])] := rfl

/-! ## C27: uniqueness of list items -/

/-- The report of a list of unique items flags, in increasing order, exactly the positions whose
value occurred earlier in the list, and the first occurrences whose own validation fails; there
is no report iff all elements are valid and different. -/
theorem C27_unique_items {α : Type} [DecidableEq α] (n : String) (xs : List α)
    (f : α → Res VResult) (hf : ∀ x ∈ xs, ∃ r, f x = .ok r) :
    ∃ r, chain [addUniqueList n xs f] = .ok r ∧
      ((r.error? n = none ∧ (∀ x ∈ xs, f x = .ok []) ∧ xs.Nodup) ∨
       ∃ errs, r.error? n = some (.list errs) ∧ UniqueEntries xs f errs ∧
        ¬ ((∀ x ∈ xs, f x = .ok []) ∧ xs.Nodup)) := by
  obtain ⟨errs, h1, h2⟩ := uniqueErrors_total (xs := xs) hf [] 0
  obtain ⟨errs', h3, h4⟩ := uniqueErrors_spec hf
  rw [h1] at h3
  obtain rfl := Except.ok.inj h3
  have hr := reports_uniqueResults n xs f errs h1 [] rfl
  have hc : chain [addUniqueList n xs f] = .ok ([] ++ ((listKind errs).map (n, ·)).toList) := by
    simp only [chain, List.foldlM_cons, List.foldlM_nil]
    rw [hr]
    rfl
  refine ⟨_, hc, ?_⟩
  simp only [List.not_mem_nil, not_false_eq_true, true_and] at h2
  by_cases hn : errs = []
  · left
    exact ⟨by simp [listKind, hn, VResult.error?], h2.mp hn⟩
  · right
    exact ⟨errs, by simp [listKind, hn, VResult.error?, List.lookup], h4, fun h => hn (h2.mpr h)⟩

/-- Non-vacuity: a repeated element and a failing one. -/
example : chain [addUniqueList "l" [7, 8, 7, 9] fun i =>
      .ok (if i = 9 then [("f", .enum "e")] else [])] =
    .ok [("l", .list [(2, [("", .custom ["repeated element"])]), (3, [("f", .enum "e")])])] := rfl

/-! ## C28: uniqueness of references -/

/-- Validation reports a non-unique `bom-ref` iff two elements carry the same one. -/
theorem C28_nonunique_reported_iff (E : VEnv) (v : SpecVersion) (b : Bom) :
    ∃ r, b.validateVersion E v = .ok r ∧ (r.hasError "bom_ref" = true ↔ ¬ b.refs.Nodup) := by
  obtain ⟨base, st, h1, h2, h3, h4⟩ := b.validateVersion_spec E v
  refine ⟨st, h2, ?_⟩
  unfold VResult.hasError
  rw [h4 "bom_ref", h3 "bom_ref" (by decide)]
  have he : b.refMessages "bom_ref" = [] ↔ b.refs.Nodup := by
    simp [Bom.refMessages, repeatsFrom_eq_nil]
  by_cases hn : b.refs.Nodup
  · simp [he.mpr hn, customKind, hn]
  · simp [customKind, mt he.mp hn, hn]

theorem notUnique_injective {a b : String} (h : notUnique a = notUnique b) : a = b := by
  unfold notUnique at h
  simpa using h

/-- The report names exactly the references that occur more than once. -/
theorem C28_nonunique_names (E : VEnv) (v : SpecVersion) (b : Bom) :
    ∃ r, b.validateVersion E v = .ok r ∧ ∀ ref : String,
      (∃ es, r.error? "bom_ref" = some (.custom es) ∧
        ("Bom ref \"" ++ ref ++ "\" is not unique") ∈ es) ↔ 2 ≤ b.refs.count ref := by
  obtain ⟨base, st, h1, h2, h3, h4⟩ := b.validateVersion_spec E v
  refine ⟨st, h2, fun ref => ?_⟩
  unfold VResult.error?
  rw [h4 "bom_ref", h3 "bom_ref" (by decide)]
  have hm : ∀ es, b.refMessages "bom_ref" = es → (notUnique ref ∈ es ↔ 2 ≤ b.refs.count ref) := by
    rintro _ rfl
    simp only [Bom.refMessages, if_true, List.mem_map]
    have := mem_repeatsFrom [] b.refs ref
    simp only [List.not_mem_nil, and_false, false_or] at this
    rw [← this]
    constructor
    · rintro ⟨q, hq, he⟩
      rw [← notUnique_injective he]; exact hq
    · intro h
      exact ⟨ref, h, rfl⟩
  have hm := hm _ rfl
  by_cases hn : b.refMessages "bom_ref" = []
  · rw [hn] at hm
    simpa [customKind, hn] using hm
  · simp only [customKind, hn, if_false]
    rw [← hm]
    simp [notUnique]

/-- A component nested in the metadata component and a vulnerability with the same reference. -/
def twins : Bom where
  version := 1
  specVersion := .v1_5
  metadata := some
    { component := some
        { componentType := .library, name := "root", version := some "1", bomRef := some "a",
          components := some [{ componentType := .file, name := "x", version := some "1", bomRef := some "b" }] } }
  vulnerabilities := some [{ bomRef := some "b" }]
  dependencies := some [{ dependencyRef := "a", dependencies := ["b", "c"] },
    { dependencyRef := "d", dependencies := [] }]
  compositions := some [{ aggregate := .complete, assemblies := some ["a"], dependencies := some ["e"] }]

example : twins.refs = ["a", "b", "b"] ∧ ¬ twins.refs.Nodup ∧ 2 ≤ twins.refs.count "b" := by decide

/-! ## C29: dangling references -/

/-- Validation reports a dependency whose own reference is unknown, and a dependency on an
unknown reference, each by name, and no other. -/
theorem C29_dangling_dependencies (E : VEnv) (v : SpecVersion) (b : Bom) :
    ∃ r, b.validateVersion E v = .ok r ∧ ∀ ref : String,
      ((∃ es, r.error? "dependency_ref" = some (.custom es) ∧
          ("Dependency ref '" ++ ref ++ "' does not exist in the BOM") ∈ es) ↔
        ref ∉ b.refs ∧ ∃ d ∈ b.dependencies.getD [], d.dependencyRef = ref) ∧
      ((∃ es, r.error? "sub dependency_ref" = some (.custom es) ∧
          ("Dependency ref '" ++ ref ++ "' does not exist in the BOM") ∈ es) ↔
        ref ∉ b.refs ∧ ∃ d ∈ b.dependencies.getD [], ref ∈ d.dependencies) := by
  obtain ⟨base, st, h1, h2, h3, h4⟩ := b.validateVersion_spec E v
  refine ⟨st, h2, fun ref => ?_⟩
  unfold VResult.error?
  have inj : ∀ a c, noDependency a = noDependency c → a = c := by
    intro a c h; unfold noDependency at h; simpa using h
  have gen : ∀ key, key ∈ refKeys → ∀ l, b.refMessages key = (missing b.refs l).map noDependency →
      ((∃ es, List.lookup key st = some (.custom es) ∧ noDependency ref ∈ es) ↔
        ref ∉ b.refs ∧ ref ∈ l) := by
    intro key hk l hl
    rw [h4 key, h3 key hk, hl]
    have hm : noDependency ref ∈ (missing b.refs l).map noDependency ↔ ref ∉ b.refs ∧ ref ∈ l := by
      simp only [missing, List.mem_map, List.mem_filter, decide_eq_true_eq]
      constructor
      · rintro ⟨q, hq, he⟩
        rw [← inj _ _ he]; exact ⟨hq.2, hq.1⟩
      · intro h
        exact ⟨ref, ⟨h.2, h.1⟩, rfl⟩
    rw [← hm]
    by_cases hn : (missing b.refs l).map noDependency = []
    · simp [customKind, hn]
    · simp only [customKind, hn, if_false]
      simp
  constructor
  · have := gen "dependency_ref" (by decide) ((b.dependencies.getD []).map (·.dependencyRef)) rfl
    rw [List.mem_map] at this
    exact this
  · have := gen "sub dependency_ref" (by decide) ((b.dependencies.getD []).flatMap (·.dependencies)) rfl
    rw [List.mem_flatMap] at this
    exact this

/-- The same for the assemblies and dependencies of compositions. -/
theorem C29_dangling_compositions (E : VEnv) (v : SpecVersion) (b : Bom) :
    ∃ r, b.validateVersion E v = .ok r ∧ ∀ ref : String,
      (∃ es, r.error? "composition ref" = some (.custom es) ∧
          ("Composition reference '" ++ ref ++ "' does not exist in the BOM") ∈ es) ↔
        ref ∉ b.refs ∧ ∃ c ∈ b.compositions.getD [],
          ref ∈ c.assemblies.getD [] ∨ ref ∈ c.dependencies.getD [] := by
  obtain ⟨base, st, h1, h2, h3, h4⟩ := b.validateVersion_spec E v
  refine ⟨st, h2, fun ref => ?_⟩
  unfold VResult.error?
  have inj : ∀ a c, noComposition a = noComposition c → a = c := by
    intro a c h; unfold noComposition at h; simpa using h
  rw [h4 "composition ref", h3 "composition ref" (by decide)]
  have hm : noComposition ref ∈ b.refMessages "composition ref" ↔
      ref ∉ b.refs ∧ ∃ c ∈ b.compositions.getD [],
          ref ∈ c.assemblies.getD [] ∨ ref ∈ c.dependencies.getD [] := by
    rw [show b.refMessages "composition ref" = (missing b.refs ((b.compositions.getD []).flatMap
      fun c => c.assemblies.getD [] ++ c.dependencies.getD [])).map noComposition from rfl]
    simp only [missing, List.mem_map, List.mem_filter, decide_eq_true_eq, List.mem_flatMap,
      List.mem_append]
    constructor
    · rintro ⟨q, hq, he⟩
      rw [← inj _ _ he]; exact ⟨hq.2, hq.1⟩
    · intro h
      exact ⟨ref, ⟨h.2, h.1⟩, rfl⟩
  rw [← hm]
  clear hm
  generalize b.refMessages "composition ref" = m
  show (∃ es, _ ∧ noComposition ref ∈ es) ↔ noComposition ref ∈ m
  by_cases hn : m = []
  · simp [customKind, hn]
  · simp only [customKind, hn, if_false]
    simp

/-- The vulnerabilities a composition refers to are not looked up: a composition with an
arbitrary such list gives the same reports about references. -/
theorem C29_composition_vulnerabilities_ignored (E : VEnv) (v : SpecVersion) (b : Bom)
    (c : Composition) (vs : Option (List String)) (l : List Composition)
    (hb : b.compositions = some (c :: l)) :
    ({ b with compositions := some ({ c with vulnerabilities := vs } :: l) }).validateVersion E v =
      b.validateVersion E v := by
  have h1 : Composition.validate E v { c with vulnerabilities := vs } = Composition.validate E v c :=
    rfl
  have h2 : Compositions.validate E v ({ c with vulnerabilities := vs } :: l) =
      Compositions.validate E v (c :: l) := by
    unfold Compositions.validate addList
    simp only [List.mapM_cons, h1]
  have h3 : ∀ refs ctx, Composition.checkRefs refs ctx { c with vulnerabilities := vs } =
      Composition.checkRefs refs ctx c := fun _ _ => rfl
  have h4 : ({ b with compositions := some ({ c with vulnerabilities := vs } :: l) }).checkRefs =
      b.checkRefs := by
    funext ctx
    unfold Bom.checkRefs
    simp only [hb, Option.getD_some, List.foldlM_cons, h3]
  unfold Bom.validateVersion addStructOption addStruct
  simp only [h4, hb, h2]

/-- Non-vacuity: `twins` refers to the unknown `c`, `d` and `e`. -/
example : "d" ∉ twins.refs ∧ (∃ d ∈ twins.dependencies.getD [], d.dependencyRef = "d") ∧
    "c" ∉ twins.refs ∧ (∃ d ∈ twins.dependencies.getD [], "c" ∈ d.dependencies) ∧
    "e" ∉ twins.refs ∧ ∃ c ∈ twins.compositions.getD [], "e" ∈ c.dependencies.getD [] := by
  refine ⟨by decide, ⟨{ dependencyRef := "d", dependencies := [] }, by simp [twins], rfl⟩,
    by decide, ⟨{ dependencyRef := "a", dependencies := ["b", "c"] }, by simp [twins], by decide⟩,
    by decide, ⟨_, List.mem_singleton.mpr rfl, by decide⟩⟩

end Cdx.Props
