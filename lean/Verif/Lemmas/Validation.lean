import Verif.Model.Validation

/-!
# The validation builder

`Reports s n k`: on any context without an entry named `n`, the step `s` succeeds and appends
the entry `k`, if there is one. Chains of such steps with distinct names never panic and their
result lists exactly the entries.
-/

namespace Cdx

set_option linter.unusedSimpArgs false

/-- Two lists of the same length, related element by element. -/
inductive All₂ {α β : Type _} (R : α → β → Prop) : List α → List β → Prop
  | nil : All₂ R [] []
  | cons {a : α} {b : β} {as : List α} {bs : List β} :
      R a b → All₂ R as bs → All₂ R (a :: as) (b :: bs)

/-- The step appends the report `k` under the name `n`, or nothing. -/
def Reports (s : VStep) (n : String) (k : Option ErrorsKind) : Prop :=
  ∀ st : VResult, st.lookup n = none → s st = .ok (st ++ (k.map (n, ·)).toList)

/-- The report of a field check. -/
def fieldKind : Check → Option ErrorsKind
  | .ok () => none
  | .error e => some (.field [e])

/-- The report of an enumeration check. -/
def enumKind : Check → Option ErrorsKind
  | .ok () => none
  | .error e => some (.enum e)

/-- The report of a nested structure. -/
def structKind (r : VResult) : Option ErrorsKind := if r = [] then none else some (.struct r)

/-- The report of a list, from the reports of its elements. -/
def listKind (errs : List (Nat × VResult)) : Option ErrorsKind :=
  if errs = [] then none else some (.list errs)

theorem lookup_append_none {r : VResult} {n m : String} {k : Option ErrorsKind}
    (h : r.lookup n = none) (hne : n ≠ m) :
    List.lookup n (r ++ (k.map (m, ·)).toList) = none := by
  rw [List.lookup_append, h]
  cases k with
  | none => rfl
  | some k => simp [List.lookup, beq_eq_false_iff_ne.mpr hne]

theorem reports_ok (n : String) : Reports .ok n none := fun st _ => by simp

theorem reports_field {α : Type} (n : String) (x : α) (f : α → Check) :
    Reports (addField n x f) n (fieldKind (f x)) := by
  intro st h
  unfold addField fieldKind
  match f x with
  | .ok () => simp
  | .error e => simp [VResult.addField, h]

theorem reports_enum {α : Type} (n : String) (x : α) (f : α → Check) :
    Reports (addEnum n x f) n (enumKind (f x)) := by
  intro st h
  unfold addEnum enumKind
  match f x with
  | .ok () => simp
  | .error e => simp [VResult.addEnum, h]

theorem reports_structResult (n : String) (r : VResult) :
    Reports (addStructResult n (.ok r)) n (structKind r) := by
  intro st h
  unfold addStructResult structKind
  cases r with
  | nil => simp [VResult.hasErrors, bind, Except.bind]
  | cons p r => simp [VResult.hasErrors, VResult.addNested, h, bind, Except.bind]

/-- Numbered reports of the elements with errors. -/
def numbered (rs : List VResult) : List (Nat × VResult) :=
  (rs.zipIdx.filter fun p => p.1.hasErrors).map fun p => (p.2, p.1)

theorem reports_listResults (n : String) (rs : List VResult) :
    Reports (addListResults n (.ok rs)) n (listKind (numbered rs)) := by
  intro st h
  show (if (numbered rs).isEmpty = true then (Except.ok st : Res VResult)
    else st.addNested n (.list (numbered rs))) = _
  cases hn : numbered rs with
  | nil => simp [listKind]
  | cons a b => simp [listKind, VResult.addNested, h]

theorem reports_uniqueResults {α : Type} [DecidableEq α] (n : String) (xs : List α)
    (f : α → Res VResult) (errs : List (Nat × VResult))
    (he : uniqueErrors f [] 0 xs = .ok errs) :
    Reports (addUniqueList n xs f) n (listKind errs) := by
  intro st h
  simp only [addUniqueList, he, bind, Except.bind]
  cases errs with
  | nil => simp [listKind]
  | cons a b => simp [listKind, VResult.addNested, h]

theorem reports_custom (n e : String) : Reports (addCustom n e) n (some (.custom [e])) := by
  intro st h
  simp [addCustom, VResult.addCustom, h]

/-- The entries of a chain of steps. -/
def entries (specs : List (String × Option ErrorsKind)) : VResult :=
  specs.flatMap fun p => (p.2.map (p.1, ·)).toList

theorem chain_from {steps : List VStep} {specs : List (String × Option ErrorsKind)}
    (h : All₂ (fun s p => Reports s p.1 p.2) steps specs)
    (nd : (specs.map (·.1)).Nodup) (st : VResult)
    (hst : ∀ p ∈ specs, st.lookup p.1 = none) :
    steps.foldlM (fun st s => s st) st = (.ok (st ++ entries specs) : Res VResult) := by
  induction h generalizing st with
  | nil => simp [entries, pure, Except.pure]
  | cons hs _ ih =>
    rename_i s p steps specs _
    simp only [List.foldlM_cons, hs st (hst p (by simp)), bind, Except.bind]
    have hnd := List.nodup_cons.mp nd
    rw [ih hnd.2]
    · simp [entries]
    · intro q hq
      refine lookup_append_none (hst q (by simp [hq])) ?_
      intro heq
      exact hnd.1 (List.mem_map.mpr ⟨q, hq, heq⟩)

/-- A chain of steps with distinct names succeeds with the list of their entries. -/
theorem chain_reports {steps : List VStep} {specs : List (String × Option ErrorsKind)}
    (h : All₂ (fun s p => Reports s p.1 p.2) steps specs)
    (nd : (specs.map (·.1)).Nodup) : chain steps = .ok (entries specs) := by
  have := chain_from h nd [] (by simp)
  simpa [chain] using this

theorem entries_eq_nil {specs : List (String × Option ErrorsKind)} :
    entries specs = [] ↔ ∀ p ∈ specs, p.2 = none := by
  unfold entries
  rw [List.flatMap_eq_nil_iff]
  constructor
  · intro h p hp
    have := h p hp
    cases hk : p.2 with
    | none => rfl
    | some k => simp [hk] at this
  · intro h p hp
    simp [h p hp]

/-! ## Deciding whether a check passed -/

/-- The step reports something under `n` unless `P` holds. -/
def Good (s : VStep) (n : String) (P : Prop) : Prop := ∃ k, Reports s n k ∧ (k = none ↔ P)

/-- The validation terminates without panic, and passes iff `P` holds. -/
def GoodV (r : Res VResult) (P : Prop) : Prop := (∃ a, r = .ok a) ∧ (r = .ok [] ↔ P)

/-- The validation never panics. -/
def Total {α : Type} (f : α → Res VResult) : Prop := ∀ x, ∃ a, f x = .ok a

theorem goodV_chain {steps : List VStep} (specs : List (String × Prop))
    (h : All₂ (fun s p => Good s p.1 p.2) steps specs)
    (nd : (specs.map (·.1)).Nodup) : GoodV (chain steps) (∀ p ∈ specs, p.2) := by
  have : ∃ specs' : List (String × Option ErrorsKind),
      All₂ (fun s p => Reports s p.1 p.2) steps specs' ∧
      specs'.map (·.1) = specs.map (·.1) ∧
      ((∀ p ∈ specs', p.2 = none) ↔ ∀ p ∈ specs, p.2) := by
    clear nd
    induction h with
    | nil => exact ⟨[], .nil, rfl, by simp⟩
    | cons hs _ ih =>
      rename_i s p steps specs _
      obtain ⟨k, hk, hP⟩ := hs
      obtain ⟨specs', h1, h2, h3⟩ := ih
      refine ⟨(p.1, k) :: specs', .cons hk h1, by simp [h2], ?_⟩
      simp only [List.mem_cons, forall_eq_or_imp, h3, hP]
  obtain ⟨specs', h1, h2, h3⟩ := this
  have hc := chain_reports h1 (h2 ▸ nd)
  refine ⟨⟨_, hc⟩, ?_⟩
  rw [hc, ← h3, ← entries_eq_nil]
  simp

theorem GoodV.congr {r : Res VResult} {P Q : Prop} (h : GoodV r P) (e : P ↔ Q) : GoodV r Q :=
  ⟨h.1, h.2.trans e⟩

theorem goodV_ok_nil : GoodV (.ok []) True := ⟨⟨_, rfl⟩, by simp⟩

theorem ofCheck_eq_nil (c : Check) : VResult.ofCheck c = [] ↔ c = .ok () := by
  match c with
  | .ok () => simp [VResult.ofCheck]
  | .error e => simp [VResult.ofCheck]

theorem goodV_ofCheck (c : Check) : GoodV (.ok (.ofCheck c)) (c = .ok ()) := by
  refine ⟨⟨_, rfl⟩, ?_⟩
  simp [ofCheck_eq_nil]

theorem good_ok (n : String) : Good .ok n True := ⟨none, reports_ok n, by simp⟩

theorem good_field {α : Type} (n : String) (x : α) (f : α → Check) :
    Good (addField n x f) n (f x = .ok ()) :=
  ⟨_, reports_field n x f, by
    unfold fieldKind
    match f x with
    | .ok () => simp
    | .error e => simp⟩

theorem good_enum {α : Type} (n : String) (x : α) (f : α → Check) :
    Good (addEnum n x f) n (f x = .ok ()) :=
  ⟨_, reports_enum n x f, by
    unfold enumKind
    match f x with
    | .ok () => simp
    | .error e => simp⟩

theorem good_fieldOption {α : Type} (n : String) (x : Option α) (f : α → Check) :
    Good (addFieldOption n x f) n (∀ y, x = some y → f y = .ok ()) := by
  cases x with
  | none => simpa [addFieldOption] using good_ok n
  | some x => simpa [addFieldOption] using good_field n x f

theorem good_enumOption {α : Type} (n : String) (x : Option α) (f : α → Check) :
    Good (addEnumOption n x f) n (∀ y, x = some y → f y = .ok ()) := by
  cases x with
  | none => simpa [addEnumOption] using good_ok n
  | some x => simpa [addEnumOption] using good_enum n x f

theorem good_structResult {n : String} {r : Res VResult} (h : ∃ a, r = .ok a) :
    Good (addStructResult n r) n (r = .ok []) := by
  obtain ⟨a, rfl⟩ := h
  refine ⟨_, reports_structResult n a, ?_⟩
  by_cases ha : a = [] <;> simp [structKind, ha]

theorem good_struct {α : Type} {n : String} {x : α} {f : α → Res VResult} (h : Total f) :
    Good (addStruct n x f) n (f x = .ok []) := good_structResult (h x)

theorem good_structOption {α : Type} {n : String} {x : Option α} {f : α → Res VResult}
    (h : Total f) : Good (addStructOption n x f) n (∀ y, x = some y → f y = .ok []) := by
  cases x with
  | none => simpa [addStructOption] using good_ok n
  | some x => simpa [addStructOption] using good_struct (n := n) (x := x) h

theorem good_structOptionResult {n : String} {r : Option (Res VResult)}
    (h : ∀ y, r = some y → ∃ a, y = .ok a) :
    Good (addStructOptionResult n r) n (∀ y, r = some y → y = .ok []) := by
  cases r with
  | none => simpa [addStructOptionResult] using good_ok n
  | some r => simpa [addStructOptionResult] using good_structResult (n := n) (h r rfl)

theorem numbered_eq_nil (rs : List VResult) : numbered rs = [] ↔ ∀ r ∈ rs, r = [] := by
  unfold numbered
  rw [List.map_eq_nil_iff, List.filter_eq_nil_iff]
  constructor
  · intro h r hr
    obtain ⟨i, hi, rfl⟩ := List.getElem_of_mem hr
    have := h (rs[i], i) (by
      rw [List.mk_mem_zipIdx_iff_getElem?]; simp)
    simpa [VResult.hasErrors] using this
  · rintro h ⟨r, i⟩ hp
    have hr : r ∈ rs := List.fst_mem_of_mem_zipIdx hp
    simp [VResult.hasErrors, h r hr]

theorem good_listResults {n : String} {rs : Res (List VResult)} (h : ∃ a, rs = .ok a) :
    Good (addListResults n rs) n (∀ a, rs = .ok a → ∀ r ∈ a, r = []) := by
  obtain ⟨a, rfl⟩ := h
  refine ⟨_, reports_listResults n a, ?_⟩
  rw [show (listKind (numbered a) = none ↔ numbered a = []) by
    by_cases hh : numbered a = [] <;> simp [listKind, hh]]
  rw [numbered_eq_nil]
  simp

/-- Mapping a total validation over a list succeeds with the element results. -/
theorem mapM_validate {α : Type} {f : α → Res VResult} {xs : List α}
    (h : ∀ x ∈ xs, ∃ a, f x = .ok a) :
    ∃ rs : List VResult, xs.mapM f = .ok rs ∧ xs.map f = rs.map .ok := by
  induction xs with
  | nil => exact ⟨[], rfl, rfl⟩
  | cons x xs ih =>
    obtain ⟨a, ha⟩ := h x (by simp)
    obtain ⟨rs, h1, h2⟩ := ih (fun y hy => h y (by simp [hy]))
    refine ⟨a :: rs, ?_, by simp [ha, h2]⟩
    rw [List.mapM_cons, ha]
    simp only [bind, Except.bind, h1, pure, Except.pure]

theorem all_ok_nil {α : Type} {f : α → Res VResult} {xs : List α} {rs : List VResult}
    (h : xs.map f = rs.map .ok) : (∀ r ∈ rs, r = []) ↔ ∀ x ∈ xs, f x = .ok [] := by
  constructor
  · intro hr x hx
    have : f x ∈ rs.map (Except.ok : VResult → Res VResult) := h ▸ List.mem_map_of_mem hx
    obtain ⟨r, hr', he⟩ := List.mem_map.mp this
    rw [← he, hr r hr']
  · intro hx r hr
    have : (Except.ok r : Res VResult) ∈ xs.map f := h ▸ List.mem_map_of_mem hr
    obtain ⟨x, hx', he⟩ := List.mem_map.mp this
    rw [hx x hx'] at he
    exact (Except.ok.inj he).symm

theorem good_list_mem {α : Type} {n : String} {xs : List α} {f : α → Res VResult}
    (h : ∀ x ∈ xs, ∃ a, f x = .ok a) : Good (addList n xs f) n (∀ x ∈ xs, f x = .ok []) := by
  obtain ⟨rs, h1, h2⟩ := mapM_validate h
  have := good_listResults (n := n) (rs := xs.mapM f) ⟨rs, h1⟩
  obtain ⟨k, hk, hP⟩ := this
  refine ⟨k, hk, hP.trans ?_⟩
  rw [h1, ← all_ok_nil h2]
  simp

theorem good_list {α : Type} {n : String} {xs : List α} {f : α → Res VResult} (h : Total f) :
    Good (addList n xs f) n (∀ x ∈ xs, f x = .ok []) := good_list_mem fun x _ => h x

theorem good_listOption {α : Type} {n : String} {xs : Option (List α)} {f : α → Res VResult}
    (h : Total f) : Good (addListOption n xs f) n (∀ l, xs = some l → ∀ x ∈ l, f x = .ok []) := by
  cases xs with
  | none => simpa [addListOption] using good_ok n
  | some xs => simpa [addListOption] using good_list (n := n) (xs := xs) h

theorem uniqueErrors_total {α : Type} [DecidableEq α] {f : α → Res VResult} {xs : List α}
    (h : ∀ x ∈ xs, ∃ a, f x = .ok a) (seen : List α) (i : Nat) :
    ∃ errs, uniqueErrors f seen i xs = .ok errs ∧
      (errs = [] ↔ (∀ x ∈ xs, x ∉ seen ∧ f x = .ok []) ∧ xs.Nodup) := by
  induction xs generalizing seen i with
  | nil => exact ⟨[], rfl, by simp⟩
  | cons x xs ih =>
    have ih := fun s => ih (fun y hy => h y (by simp [hy])) s (i + 1)
    by_cases hx : x ∈ seen
    · obtain ⟨errs, h1, h2⟩ := ih seen
      refine ⟨(i, VResult.ofCheck (.error "repeated element")) :: errs, ?_, ?_⟩
      · simp [uniqueErrors, hx, h1, bind, Except.bind]
      · simp [hx]
    · obtain ⟨errs, h1, h2⟩ := ih (x :: seen)
      obtain ⟨a, ha⟩ := h x (by simp)
      refine ⟨if a.hasErrors then (i, a) :: errs else errs, ?_, ?_⟩
      · simp [uniqueErrors, hx, h1, ha, bind, Except.bind]
      · cases a with
        | nil =>
          simp only [VResult.hasErrors, List.isEmpty_nil, Bool.not_true, Bool.false_eq_true,
            if_false, h2, List.mem_cons, not_or, List.nodup_cons, forall_eq_or_imp, ha]
          grind
        | cons p a => simp [VResult.hasErrors, ha]

theorem good_unique {α : Type} [DecidableEq α] {n : String} {xs : List α}
    {f : α → Res VResult} (h : Total f) :
    Good (addUniqueList n xs f) n ((∀ x ∈ xs, f x = .ok []) ∧ xs.Nodup) := by
  obtain ⟨errs, h1, h2⟩ := uniqueErrors_total (xs := xs) (fun x _ => h x) [] 0
  refine ⟨_, reports_uniqueResults n xs f errs h1, ?_⟩
  rw [show (listKind errs = none ↔ errs = []) by by_cases hh : errs = [] <;> simp [listKind, hh],
    h2]
  simp

theorem good_uniqueOption {α : Type} [DecidableEq α] {n : String} {xs : Option (List α)}
    {f : α → Res VResult} (h : Total f) :
    Good (addUniqueListOption n xs f) n
      (∀ l, xs = some l → (∀ x ∈ l, f x = .ok []) ∧ l.Nodup) := by
  cases xs with
  | none => simpa [addUniqueListOption] using good_ok n
  | some xs => simpa [addUniqueListOption] using good_unique (n := n) (xs := xs) h

theorem good_custom (n e : String) : Good (addCustom n e) n False :=
  ⟨_, reports_custom n e, by simp⟩

end Cdx
