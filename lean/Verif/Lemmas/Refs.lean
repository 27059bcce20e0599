import Verif.Lemmas.Elements

/-!
# The reference checks of a BOM

`View base f st`: the context `st` is `base` plus the custom messages `f key` for each key.
-/

namespace Cdx

open Spec

set_option linter.unusedSimpArgs false

/-- The report of custom errors. -/
def customKind (es : List String) : Option ErrorsKind := if es = [] then none else some (.custom es)

/-- Message lists by key, with a message added. -/
def addMsg (f : String → List String) (key e : String) : String → List String :=
  fun k => if k = key then f k ++ [e] else f k

/-- The context holds `base` and the messages `f`. -/
def View (base : VResult) (f : String → List String) (st : VResult) : Prop :=
  ∀ k, st.lookup k = match customKind (f k) with
    | some c => some c
    | none => base.lookup k

theorem view_base (base : VResult) : View base (fun _ => []) base := fun k => by simp [customKind]

theorem lookup_insert (r : VResult) (n m : String) (k : ErrorsKind) :
    List.lookup m (r.insert n k) = if m = n then some k else r.lookup m := by
  induction r with
  | nil =>
    by_cases h : m = n
    · simp [VResult.insert, List.lookup, h]
    · simp [VResult.insert, List.lookup, h, beq_eq_false_iff_ne.mpr h]
  | cons p r ih =>
    obtain ⟨a, l⟩ := p
    unfold VResult.insert
    by_cases ha : a = n
    · subst ha
      by_cases h : m = a <;> simp [List.lookup, h]
      all_goals simp [beq_eq_false_iff_ne.mpr h]
    · simp only [ha, if_false, List.lookup]
      by_cases h : m = a
      · subst h; simp [ha]
      · simp [beq_eq_false_iff_ne.mpr h, ih]

theorem view_addCustom {base st : VResult} {f : String → List String} (hv : View base f st)
    {key e : String} (hb : base.lookup key = none) :
    ∃ st', addCustom key e st = .ok st' ∧ View base (addMsg f key e) st' := by
  have hk := hv key
  unfold addCustom VResult.addCustom
  by_cases hf : f key = []
  · rw [hf] at hk
    simp only [customKind, if_true, hb] at hk
    rw [hk]
    refine ⟨_, rfl, fun k => ?_⟩
    rw [List.lookup_append, hv k]
    by_cases h : k = key
    · subst h
      simp [addMsg, customKind, hf, hb]
    · simp only [addMsg, h, if_false, List.lookup, beq_eq_false_iff_ne.mpr h]
      simp
  · simp only [customKind, hf, if_false] at hk
    rw [hk]
    refine ⟨_, rfl, fun k => ?_⟩
    rw [lookup_insert]
    by_cases h : k = key
    · subst h; simp [addMsg, customKind]
    · simp [addMsg, h, hv k]

theorem view_nil {base st : VResult} {f : String → List String} (hv : View base f st) :
    st = [] ↔ base = [] ∧ ∀ k, f k = [] := by
  have hnil (r : VResult) : r = [] ↔ ∀ k, r.lookup k = none := by
    constructor
    · rintro rfl; simp
    · intro h
      cases r with
      | nil => rfl
      | cons p r => exact absurd (h p.1) (by simp [List.lookup])
  rw [hnil st, hnil base]
  constructor
  · intro h
    have hf : ∀ k, f k = [] := by
      intro k
      have := hv k
      rw [h k] at this
      by_cases hk : f k = []
      · exact hk
      · simp [customKind, hk] at this
    refine ⟨fun k => ?_, hf⟩
    have := hv k
    rw [h k, hf k] at this
    simpa [customKind] using this.symm
  · rintro ⟨hb, hf⟩ k
    rw [hv k, hf k]
    simp [customKind, hb k]

/-! ## Collecting the references -/

/-- The elements of a list that are in `seen` or occur earlier in the list. -/
def repeatsFrom : List String → List String → List String
  | _, [] => []
  | seen, r :: l => if r ∈ seen then r :: repeatsFrom (r :: seen) l else repeatsFrom (r :: seen) l

/-- A visit of a list of references one after the other. -/
def visitAll (add : BomRefs → String → BomRefs) (s : RefState) (l : List String) : Res RefState :=
  l.foldlM (fun s r => visitRef add s (some r)) s

theorem visitAll_append (add : BomRefs → String → BomRefs) (s : RefState) (l m : List String) :
    visitAll add s (l ++ m) = (visitAll add s l >>= fun s => visitAll add s m) := by
  simp [visitAll, List.foldlM_append]

theorem visitRef_toList (add : BomRefs → String → BomRefs) (s : RefState) (r : Option String) :
    visitRef add s r = visitAll add s r.toList := by
  cases r with
  | none => rfl
  | some r =>
    simp only [visitAll, Option.toList, List.foldlM_cons, List.foldlM_nil]
    cases visitRef add s (some r) <;> rfl

mutual

theorem Component.visitRefs_eq : ∀ (c : Component) (s : RefState),
    Component.visitRefs s c = visitAll BomRefs.addComponent s c.refs
  | ⟨_, _, bomRef, _, _, _, _, _, _, _, _, _, _, _, _, _, _, _, _, _, _, components, _, _, _, _⟩,
      s => by
    rw [Component.visitRefs, Component.refs, visitAll_append, visitRef_toList]
    congr 1
    funext s
    exact Component.visitRefsOption_eq components s
termination_by structural c => c

theorem Component.visitRefsOption_eq : ∀ (cs : Option (List Component)) (s : RefState),
    Components.visitRefsOption s cs = visitAll BomRefs.addComponent s (Component.refsOption cs)
  | none, s => rfl
  | some cs, s => Component.visitRefsList_eq cs s
termination_by structural cs => cs

theorem Component.visitRefsList_eq : ∀ (cs : List Component) (s : RefState),
    Components.visitRefs s cs = visitAll BomRefs.addComponent s (Component.refsList cs)
  | [], s => rfl
  | c :: cs, s => by
    rw [Components.visitRefs, Component.refsList, visitAll_append, Component.visitRefs_eq c s]
    congr 1
    funext s
    exact Component.visitRefsList_eq cs s
termination_by structural cs => cs

end

mutual

theorem Service.visitRefs_eq : ∀ (c : Service) (s : RefState),
    Service.visitRefs s c = visitAll BomRefs.addService s c.refs
  | ⟨bomRef, _, _, _, _, _, _, _, _, _, _, _, _, services, _, _⟩, s => by
    rw [Service.visitRefs, Service.refs, visitAll_append, visitRef_toList]
    congr 1
    funext s
    exact Service.visitRefsOption_eq services s
termination_by structural c => c

theorem Service.visitRefsOption_eq : ∀ (cs : Option (List Service)) (s : RefState),
    Services.visitRefsOption s cs = visitAll BomRefs.addService s (Service.refsOption cs)
  | none, s => rfl
  | some cs, s => Service.visitRefsList_eq cs s
termination_by structural cs => cs

theorem Service.visitRefsList_eq : ∀ (cs : List Service) (s : RefState),
    Services.visitRefs s cs = visitAll BomRefs.addService s (Service.refsList cs)
  | [], s => rfl
  | c :: cs, s => by
    rw [Services.visitRefs, Service.refsList, visitAll_append, Service.visitRefs_eq c s]
    congr 1
    funext s
    exact Service.visitRefsList_eq cs s
termination_by structural cs => cs

end

theorem Vulnerabilities.visitRefs_eq (vs : List Vulnerability) (s : RefState) :
    Vulnerabilities.visitRefs s vs =
      visitAll BomRefs.addVulnerability s (vs.flatMap (·.bomRef.toList)) := by
  induction vs generalizing s with
  | nil => rfl
  | cons x vs ih =>
    rw [List.flatMap_cons, visitAll_append, ← visitRef_toList]
    show (x :: vs).foldlM _ s = _
    rw [List.foldlM_cons]
    congr 1
    funext s
    exact ih s

/-- Adding a reference makes exactly it known. -/
def Adds (add : BomRefs → String → BomRefs) : Prop :=
  ∀ b r q, (add b r).contains q = true ↔ q = r ∨ b.contains q = true

theorem adds_component : Adds BomRefs.addComponent := by
  intro b r q; simp [BomRefs.addComponent, BomRefs.contains, or_assoc]

theorem adds_service : Adds BomRefs.addService := by
  intro b r q
  simp only [BomRefs.addService, BomRefs.contains, Bool.or_eq_true, List.contains_iff_mem,
    List.mem_cons]
  grind

theorem adds_vulnerability : Adds BomRefs.addVulnerability := by
  intro b r q
  simp only [BomRefs.addVulnerability, BomRefs.contains, Bool.or_eq_true, List.contains_iff_mem,
    List.mem_cons]
  grind

/-- The references known so far are those in `seen`. -/
def Knows (b : BomRefs) (seen : List String) : Prop := ∀ q, b.contains q = true ↔ q ∈ seen

theorem visitAll_spec {add : BomRefs → String → BomRefs} (ha : Adds add) {base : VResult}
    (hb : base.lookup "bom_ref" = none) (l : List String) (seen : List String) (s : RefState)
    (f : String → List String) (hv : View base f s.1) (hk : Knows s.2 seen)
    (hf : ∀ k, k ≠ "bom_ref" → f k = []) :
    ∃ s', visitAll add s l = .ok s' ∧ Knows s'.2 (l.reverse ++ seen) ∧
      View base (fun k => if k = "bom_ref" then f k ++ (repeatsFrom seen l).map notUnique else []) s'.1 := by
  induction l generalizing s seen f with
  | nil =>
    refine ⟨s, rfl, by simpa using hk, ?_⟩
    have : (fun k => if k = "bom_ref" then f k ++ (repeatsFrom seen []).map notUnique else []) = f := by
      funext k
      by_cases h : k = "bom_ref"
      · simp [h, repeatsFrom]
      · simp [h, hf k h]
    rw [this]; exact hv
  | cons r l ih =>
    have hkn : Knows (add s.2 r) (r :: seen) := by
      intro q; rw [ha]; simp [hk q]
    by_cases hr : r ∈ seen
    · obtain ⟨st', h1, h2⟩ := view_addCustom hv (key := "bom_ref") (e := notUnique r) hb
      obtain ⟨s', h3, h4, h5⟩ := ih (r :: seen) (st', add s.2 r) _ h2 hkn
        (fun k hkk => by simp [addMsg, hkk, hf k hkk])
      refine ⟨s', ?_, by simpa using h4, ?_⟩
      · simp only [visitAll, List.foldlM_cons, visitRef, (hk r).mpr hr, if_true, h1, bind,
          Except.bind]
        exact h3
      · have : (fun k => if k = "bom_ref" then f k ++ (repeatsFrom seen (r :: l)).map notUnique else []) =
            (fun k => if k = "bom_ref" then addMsg f "bom_ref" (notUnique r) k ++
              (repeatsFrom (r :: seen) l).map notUnique else []) := by
          funext k
          by_cases h : k = "bom_ref" <;> simp [h, addMsg, repeatsFrom, hr]
        rw [this]; exact h5
    · obtain ⟨s', h3, h4, h5⟩ := ih (r :: seen) (s.1, add s.2 r) f hv hkn hf
      refine ⟨s', ?_, by simpa using h4, ?_⟩
      · have : ¬ s.2.contains r = true := fun h => hr ((hk r).mp h)
        simp only [visitAll, List.foldlM_cons, visitRef, this, if_false, bind, Except.bind]
        exact h3
      · have : repeatsFrom seen (r :: l) = repeatsFrom (r :: seen) l := by simp [repeatsFrom, hr]
        rw [this]; exact h5

theorem repeatsFrom_append (seen l m : List String) :
    repeatsFrom seen (l ++ m) = repeatsFrom seen l ++ repeatsFrom (l.reverse ++ seen) m := by
  induction l generalizing seen with
  | nil => simp [repeatsFrom]
  | cons r l ih => by_cases h : r ∈ seen <;> simp [repeatsFrom, h, ih]

theorem repeatsFrom_eq_nil (seen l : List String) :
    repeatsFrom seen l = [] ↔ (∀ r ∈ l, r ∉ seen) ∧ l.Nodup := by
  induction l generalizing seen with
  | nil => simp [repeatsFrom]
  | cons r l ih =>
    by_cases h : r ∈ seen
    · simp [repeatsFrom, h]
    · simp only [repeatsFrom, h, if_false, ih, List.mem_cons, List.nodup_cons, forall_eq_or_imp,
        not_false_eq_true, true_and, not_or]
      grind

theorem mem_repeatsFrom (seen l : List String) (r : String) :
    r ∈ repeatsFrom seen l ↔ (r ∈ l ∧ r ∈ seen) ∨ 2 ≤ l.count r := by
  induction l generalizing seen with
  | nil => simp [repeatsFrom]
  | cons q l ih =>
    have hc : r ∈ l ↔ 1 ≤ l.count r := by
      rw [← List.count_pos_iff]
      rfl
    have hi := ih (q :: seen)
    rw [List.count_cons]
    by_cases hq : q = r
    · subst hq
      by_cases h : q ∈ seen
      · simp [repeatsFrom, h]
      · simp only [repeatsFrom, h, if_false, hi, hc, List.mem_cons, beq_self_eq_true, if_true,
          true_or, and_true, and_false, false_or]
        omega
    · have hq' : (q == r) = false := beq_eq_false_iff_ne.mpr hq
      have hr : r ≠ q := fun e => hq e.symm
      by_cases h : q ∈ seen
      · simp only [repeatsFrom, h, if_true, hi, List.mem_cons, hr, hq', false_or]
        simp
      · simp only [repeatsFrom, h, if_false, hi, List.mem_cons, hr, hq', false_or]
        simp

/-! ## Dangling references -/

/-- The references of a list that are unknown. -/
def missing (known : List String) (l : List String) : List String := l.filter (· ∉ known)

theorem requireAll_spec {refs : BomRefs} {known : List String} (hk : Knows refs known)
    {base : VResult} {key : String} (hb : base.lookup key = none) (msg : String → String)
    (l : List String) (st : VResult) (f : String → List String) (hv : View base f st) :
    ∃ st', l.foldlM (requireRef refs key msg) st = .ok st' ∧
      View base (fun k => if k = key then f k ++ (missing known l).map msg else f k) st' := by
  induction l generalizing st f with
  | nil =>
    refine ⟨st, rfl, ?_⟩
    have : (fun k => if k = key then f k ++ (missing known []).map msg else f k) = f := by
      funext k; simp [missing]
    rw [this]; exact hv
  | cons r l ih =>
    by_cases hr : r ∈ known
    · obtain ⟨st', h1, h2⟩ := ih st f hv
      refine ⟨st', ?_, ?_⟩
      · simp only [List.foldlM_cons, requireRef, (hk r).mpr hr, if_true, bind, Except.bind]
        exact h1
      · have : missing known (r :: l) = missing known l := by simp [missing, hr]
        rw [this]; exact h2
    · obtain ⟨st1, h1, h2⟩ := view_addCustom hv (key := key) (e := msg r) hb
      obtain ⟨st', h3, h4⟩ := ih st1 _ h2
      refine ⟨st', ?_, ?_⟩
      · have : ¬ refs.contains r = true := fun h => hr ((hk r).mp h)
        simp only [List.foldlM_cons, requireRef, this, if_false, h1, bind, Except.bind]
        exact h3
      · have : (fun k => if k = key then f k ++ (missing known (r :: l)).map msg else f k) =
            (fun k => if k = key then addMsg f key (msg r) k ++ (missing known l).map msg
              else addMsg f key (msg r) k) := by
          funext k
          by_cases h : k = key <;> simp [h, addMsg, missing, hr]
        rw [this]; exact h4

theorem missing_append (known l m : List String) :
    missing known (l ++ m) = missing known l ++ missing known m := by simp [missing]

theorem dependencies_spec {refs : BomRefs} {known : List String} (hk : Knows refs known)
    {base : VResult} (hb1 : base.lookup "dependency_ref" = none)
    (hb2 : base.lookup "sub dependency_ref" = none) (ds : List Dependency) (st : VResult)
    (f : String → List String) (hv : View base f st) :
    ∃ st', ds.foldlM (Dependency.checkRefs refs) st = .ok st' ∧
      View base (fun k =>
        if k = "dependency_ref" then
          f k ++ (missing known (ds.map (·.dependencyRef))).map noDependency
        else if k = "sub dependency_ref" then
          f k ++ (missing known (ds.flatMap (·.dependencies))).map noDependency
        else f k) st' := by
  induction ds generalizing st f with
  | nil =>
    refine ⟨st, rfl, ?_⟩
    have : (fun k =>
        if k = "dependency_ref" then
          f k ++ (missing known (([] : List Dependency).map (·.dependencyRef))).map noDependency
        else if k = "sub dependency_ref" then
          f k ++ (missing known (([] : List Dependency).flatMap (·.dependencies))).map noDependency
        else f k) = f := by
      funext k; simp [missing]
    rw [this]; exact hv
  | cons d ds ih =>
    obtain ⟨st1, h1, h2⟩ := requireAll_spec hk hb1 noDependency [d.dependencyRef] st f hv
    obtain ⟨st2, h3, h4⟩ := requireAll_spec hk hb2 noDependency d.dependencies st1 _ h2
    obtain ⟨st', h5, h6⟩ := ih st2 _ h4
    refine ⟨st', ?_, ?_⟩
    · have h1' : requireRef refs "dependency_ref" noDependency st d.dependencyRef = .ok st1 := by
        simp only [List.foldlM_cons, List.foldlM_nil] at h1
        revert h1
        cases requireRef refs "dependency_ref" noDependency st d.dependencyRef with
        | error e => simp [bind, Except.bind]
        | ok a => simp [bind, Except.bind, pure, Except.pure]
      simp only [List.foldlM_cons, Dependency.checkRefs, h1', h3, bind, Except.bind]
      exact h5
    · intro k
      have := h6 k
      rw [this]
      by_cases ha : k = "dependency_ref"
      · subst ha
        by_cases hd : d.dependencyRef ∈ known <;> simp [missing, List.filter_cons, hd]
      · by_cases hb : k = "sub dependency_ref"
        · subst hb
          simp [missing, List.filter_append]
        · simp [ha, hb]

theorem compositions_spec {refs : BomRefs} {known : List String} (hk : Knows refs known)
    {base : VResult} (hb : base.lookup "composition ref" = none) (cs : List Composition)
    (st : VResult) (f : String → List String) (hv : View base f st) :
    ∃ st', cs.foldlM (Composition.checkRefs refs) st = .ok st' ∧
      View base (fun k =>
        if k = "composition ref" then
          f k ++ (missing known (cs.flatMap fun c =>
            c.assemblies.getD [] ++ c.dependencies.getD [])).map noComposition
        else f k) st' := by
  induction cs generalizing st f with
  | nil =>
    refine ⟨st, rfl, ?_⟩
    have : (fun k =>
        if k = "composition ref" then
          f k ++ (missing known (([] : List Composition).flatMap fun c =>
            c.assemblies.getD [] ++ c.dependencies.getD [])).map noComposition
        else f k) = f := by
      funext k; simp [missing]
    rw [this]; exact hv
  | cons c cs ih =>
    obtain ⟨st1, h1, h2⟩ := requireAll_spec hk hb noComposition (c.assemblies.getD []) st f hv
    obtain ⟨st2, h3, h4⟩ := requireAll_spec hk hb noComposition (c.dependencies.getD []) st1 _ h2
    obtain ⟨st', h5, h6⟩ := ih st2 _ h4
    refine ⟨st', ?_, ?_⟩
    · simp only [List.foldlM_cons, Composition.checkRefs, h1, h3, bind, Except.bind]
      exact h5
    · intro k
      rw [h6 k]
      by_cases h : k = "composition ref" <;> simp [h, missing, List.filter_append]

/-! ## The whole check -/

/-- The messages of the reference checks of a BOM, by key. -/
def Bom.refMessages (b : Bom) (key : String) : List String :=
  if key = "bom_ref" then (repeatsFrom [] b.refs).map notUnique
  else if key = "dependency_ref" then
    (missing b.refs ((b.dependencies.getD []).map (·.dependencyRef))).map noDependency
  else if key = "sub dependency_ref" then
    (missing b.refs ((b.dependencies.getD []).flatMap (·.dependencies))).map noDependency
  else if key = "composition ref" then
    (missing b.refs ((b.compositions.getD []).flatMap fun c =>
      c.assemblies.getD [] ++ c.dependencies.getD [])).map noComposition
  else []

/-- The keys used by the reference checks. -/
def refKeys : List String := ["bom_ref", "dependency_ref", "sub dependency_ref", "composition ref"]

theorem Bom.checkRefs_spec (b : Bom) (base : VResult) (hb : ∀ k ∈ refKeys, base.lookup k = none) :
    ∃ st, b.checkRefs base = .ok st ∧ View base b.refMessages st := by
  simp only [refKeys, List.forall_mem_cons] at hb
  obtain ⟨hb1, hb2, hb3, hb4, -⟩ := hb
  have hk0 : Knows ({} : BomRefs) [] := by intro q; simp [BomRefs.contains]
  obtain ⟨s1, e1, k1, v1⟩ := visitAll_spec adds_component hb1
    ((b.metadata.bind (·.component)).toList.flatMap Component.refs) [] (base, {}) _
    (view_base base) hk0 (fun _ _ => rfl)
  obtain ⟨s2, e2, k2, v2⟩ := visitAll_spec adds_component hb1 (Component.refsOption b.components) _
    s1 _ v1 k1 (fun k hk => by simp [hk])
  obtain ⟨s3, e3, k3, v3⟩ := visitAll_spec adds_service hb1 (Service.refsOption b.services) _
    s2 _ v2 k2 (fun k hk => by simp [hk])
  obtain ⟨s4, e4, k4, v4⟩ := visitAll_spec adds_vulnerability hb1
    ((b.vulnerabilities.getD []).flatMap (·.bomRef.toList)) _ s3 _ v3 k3 (fun k hk => by simp [hk])
  have known : Knows s4.2 b.refs := by
    intro q
    rw [k4 q]
    simp only [List.mem_append, List.mem_reverse, List.not_mem_nil, or_false, Bom.refs]
    grind
  obtain ⟨s5, e5, v5⟩ := dependencies_spec known hb2 hb3 (b.dependencies.getD []) s4.1 _ v4
  obtain ⟨s6, e6, v6⟩ := compositions_spec known hb4 (b.compositions.getD []) s5 _ v5
  refine ⟨s6, ?_, ?_⟩
  · unfold Bom.checkRefs
    have tail : (do
        let s ← Components.visitRefsOption s1 b.components
        let s ← Services.visitRefsOption s b.services
        let s ← Vulnerabilities.visitRefs s (b.vulnerabilities.getD [])
        let ctx ← (b.dependencies.getD []).foldlM (Dependency.checkRefs s.2) s.1
        (b.compositions.getD []).foldlM (Composition.checkRefs s.2) ctx) = (.ok s6 : Res VResult) := by
      simp only [bind, Except.bind]
      rw [Component.visitRefsOption_eq, e2]
      simp only
      rw [Service.visitRefsOption_eq, e3]
      simp only
      rw [Vulnerabilities.visitRefs_eq, e4]
      simp only
      rw [e5]
      exact e6
    cases hm : b.metadata.bind (·.component) with
    | none =>
      rw [hm] at e1
      obtain rfl : (base, {}) = s1 := by
        simpa [visitAll, pure, Except.pure] using e1
      exact tail
    | some c =>
      rw [hm] at e1
      simp only [Option.toList, List.flatMap_cons, List.flatMap_nil, List.append_nil] at e1
      simp only
      rw [Component.visitRefs_eq, e1]
      exact tail
  · intro k
    rw [v6 k]
    have hr : repeatsFrom [] b.refs =
        repeatsFrom [] ((b.metadata.bind (·.component)).toList.flatMap Component.refs) ++
        repeatsFrom (((b.metadata.bind (·.component)).toList.flatMap Component.refs).reverse ++ [])
          (Component.refsOption b.components) ++
        repeatsFrom ((Component.refsOption b.components).reverse ++
          (((b.metadata.bind (·.component)).toList.flatMap Component.refs).reverse ++ []))
          (Service.refsOption b.services) ++
        repeatsFrom ((Service.refsOption b.services).reverse ++
          ((Component.refsOption b.components).reverse ++
          (((b.metadata.bind (·.component)).toList.flatMap Component.refs).reverse ++ [])))
          ((b.vulnerabilities.getD []).flatMap (·.bomRef.toList)) := by
      unfold Bom.refs
      rw [repeatsFrom_append, repeatsFrom_append, repeatsFrom_append]
      simp
    by_cases h1 : k = "bom_ref"
    · subst h1
      simp [Bom.refMessages, hr, List.map_append]
    · by_cases h2 : k = "dependency_ref"
      · subst h2; simp [Bom.refMessages]
      · by_cases h3 : k = "sub dependency_ref"
        · subst h3; simp [Bom.refMessages]
        · by_cases h4 : k = "composition ref"
          · subst h4; simp [Bom.refMessages]
          · simp [Bom.refMessages, h1, h2, h3, h4]

end Cdx
