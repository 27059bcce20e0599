import Verif.Spec.Format.Tags
import Verif.Lemmas.Format.Document

set_option linter.unusedSectionVars false

/-!
# Lemmas on elements that are skipped
-/

namespace Cdx

variable {σ α ρ : Type}

theorem readFields_foreign {el : XName} {arms : List (String × Arm σ)} {st : σ} {n : XName}
    {attrs : List (String × String)} {ns : Option String} {content : List XNode} {rest : List XEvent}
    (h : n.localName ∉ arms.map (·.1)) :
    readFields .skip el arms st ((XNode.elem n attrs ns content).events ++ rest) =
      readFields .skip el arms st rest := by
  have hl : arms.lookup n.localName = none := by
    rw [List.lookup_eq_none_iff]
    intro p hp
    simp only [bne_iff_ne, ne_eq, beq_eq_false_iff_ne]
    intro e
    exact h (List.mem_map.2 ⟨p, hp, e.symm⟩)
  have hev : XNode.events (.elem n attrs ns content) ++ rest =
      .start n attrs ns :: (XNode.eventsAll content ++ .stop n :: rest) := by
    simp [XNode.events]
  rw [hev, readFields_start, hl]
  simp only
  rw [skipElem_eventsAll]
  simp only [skipElem, if_true]
  rw [if_pos (by simp; omega)]

theorem readFields_lax {el : XName} {arms : List (String × Arm σ)}
    (harms : ∀ p ∈ arms, LocalArm p.1 p.2) {st : σ} {children : List XNode} {n : XName}
    {attrs : List (String × String)} {ns : Option String} {content : List XNode} {rest : List XEvent}
    (ht : XNode.TameAll children) (h : n.localName ∉ arms.map (·.1)) :
    readFields .skip el arms st
        (XNode.eventsAll children ++ ((XNode.elem n attrs ns content).events ++ rest)) =
      readFields .skip el arms st (XNode.eventsAll children ++ rest) := by
  rcases passes_eventsAll (mode := .skip) (el := el) harms children st (by simp) ht with ⟨e, he⟩ | ⟨s, hs⟩
  · rw [he, he]
  · rw [hs, hs, readFields_foreign h]

theorem readStruct_lax {pre : XName → List (String × String) → Except XErr ρ}
    {init : σ} {arms : List (String × Arm σ)} {fin : XName → ρ → σ → Except XErr α}
    {known : List String} (harms : ∀ p ∈ arms, LocalArm p.1 p.2) (hk : arms.map (·.1) = known) :
    Lax known (readStruct .skip pre init arms fin) := by
  intro el attrs children n fattrs fns content rest ht h
  simp only [readStruct]
  cases pre el attrs with
  | error e => rfl
  | ok p =>
    simp only [bind, Except.bind]
    rw [readFields_lax harms ht (hk ▸ h)]

theorem readListLax_lax {inner : String} {r : XElem α} (h : LocalAt inner r) :
    Lax [inner] (readListLax inner r) := by
  intro el attrs children n fattrs fns content rest ht hn
  exact readFields_lax (armsCons (arm_local h fun x (l : List α) => l ++ [x]) armsNil) ht hn

variable [F32Format] [ReadLimit]

theorem OrganizationalContact.lax : Lax OrganizationalContact.tags OrganizationalContact.readXml :=
  readStruct_lax OrganizationalContact.arms_local rfl

theorem OrganizationalEntity.lax : Lax OrganizationalEntity.tags OrganizationalEntity.readXml :=
  readStruct_lax OrganizationalEntity.arms_local rfl

theorem VulnerabilitySource.lax : Lax VulnerabilitySource.tags VulnerabilitySource.readXml :=
  readStruct_lax VulnerabilitySource.arms_local rfl

theorem VulnerabilityReference.lax : Lax VulnerabilityReference.tags VulnerabilityReference.readXml :=
  readStruct_lax VulnerabilityReference.arms_local rfl

theorem Advisory.lax : Lax Advisory.tags Advisory.readXml :=
  readStruct_lax Advisory.arms_local rfl

theorem VulnerabilityCredits.lax : Lax VulnerabilityCredits.tags VulnerabilityCredits.readXml :=
  readStruct_lax VulnerabilityCredits.arms_local rfl

theorem License.lax (v : SpecVersion) : Lax (License.tags v) (License.readXml v) :=
  readStruct_lax (License.arms_local v) (by cases v <;> rfl)

theorem IdentifiableAction.lax : Lax IdentifiableAction.tags IdentifiableAction.readXml :=
  readStruct_lax IdentifiableAction.arms_local rfl

theorem Commit.lax : Lax Commit.tags Commit.readXml :=
  readStruct_lax Commit.arms_local rfl

theorem Diff.lax : Lax Diff.tags Diff.readXml :=
  readStruct_lax Diff.arms_local rfl

theorem Issue.lax : Lax Issue.tags Issue.readXml :=
  readStruct_lax Issue.arms_local rfl

theorem Patch.lax : Lax Patch.tags Patch.readXml :=
  readStruct_lax Patch.arms_local rfl

theorem VulnerabilityAnalysis.lax (v : SpecVersion) : Lax (VulnerabilityAnalysis.tags v) (VulnerabilityAnalysis.readXml v) :=
  readStruct_lax (VulnerabilityAnalysis.arms_local v) (by cases v <;> rfl)

theorem TargetVersion.lax : Lax TargetVersion.tags TargetVersion.readXml :=
  readStruct_lax TargetVersion.arms_local rfl

theorem VulnerabilityTarget.lax : Lax VulnerabilityTarget.tags VulnerabilityTarget.readXml :=
  readStruct_lax VulnerabilityTarget.arms_local rfl

theorem Service.laxWith (v : SpecVersion) {sub : XElem Service} (hs : ∀ {t}, LocalAt t sub) :
    Lax (Service.tags v) (Service.readXmlWith sub v) :=
  readStruct_lax (Service.arms_localWith v hs) (by cases v <;> rfl)

theorem Service.laxN (v : SpecVersion) : ∀ n, Lax (Service.tags v) (Service.readXmlN v n)
  | 0 => fun _ _ _ _ _ _ _ _ _ _ => rfl
  | n + 1 => Service.laxWith v (Service.xml_localN v)

theorem Service.lax (v : SpecVersion) : Lax (Service.tags v) (Service.readXml v) := Service.laxN v _

theorem VulnerabilityRating.lax : Lax VulnerabilityRating.tags VulnerabilityRating.readXml :=
  readStruct_lax VulnerabilityRating.arms_local rfl

theorem Pedigree.laxWith (v : SpecVersion) {sub : XElem Component} (hs : ∀ {t}, LocalAt t sub) :
    Lax Pedigree.tags (Pedigree.readXmlWith sub v) :=
  readStruct_lax (Pedigree.arms_localWith v hs) rfl

theorem Component.laxWith (v : SpecVersion) {sub : XElem Component} (hs : ∀ {t}, LocalAt t sub) :
    Lax (Component.tags v) (Component.readXmlWith sub v) :=
  readStruct_lax (Component.arms_localWith v hs) (by cases v <;> rfl)

theorem Component.laxN (v : SpecVersion) : ∀ n, Lax (Component.tags v) (Component.readXmlN v n)
  | 0 => fun _ _ _ _ _ _ _ _ _ _ => rfl
  | n + 1 => Component.laxWith v (Component.xml_localN v)

theorem Component.lax (v : SpecVersion) : Lax (Component.tags v) (Component.readXml v) := Component.laxN v _

theorem Tool.lax (v : SpecVersion) : Lax (Tool.tags v) (Tool.readXml v) :=
  readStruct_lax (Tool.arms_local v) (by cases v <;> rfl)

theorem Metadata.lax (v : SpecVersion) : Lax (Metadata.tags v) (Metadata.readXml v) :=
  readStruct_lax (Metadata.arms_local v) (by cases v <;> rfl)

theorem Vulnerability.lax (v : SpecVersion) : Lax (Vulnerability.tags v) (Vulnerability.readXml v) :=
  readStruct_lax (Vulnerability.arms_local v) (by cases v <;> rfl)

theorem Step.lax : Lax Step.tags Step.readXml :=
  readStruct_lax Step.arms_local rfl

theorem TriggerEvent.lax : Lax TriggerEvent.tags TriggerEvent.readXml :=
  readStruct_lax TriggerEvent.arms_local rfl

theorem Trigger.lax : Lax Trigger.tags Trigger.readXml :=
  readStruct_lax Trigger.arms_local rfl

theorem Volume.lax : Lax Volume.tags Volume.readXml :=
  readStruct_lax Volume.arms_local rfl

theorem Workspace.lax : Lax Workspace.tags Workspace.readXml :=
  readStruct_lax Workspace.arms_local rfl

theorem WorkflowTask.lax : Lax WorkflowTask.tags WorkflowTask.readXml :=
  readStruct_lax WorkflowTask.arms_local rfl

theorem Workflow.lax : Lax Workflow.tags Workflow.readXml :=
  readStruct_lax Workflow.arms_local rfl

theorem EnvironmentVar.lax : Lax ["environmentVar", "value"] EnvironmentVar.readAll :=
  readStruct_lax (armsCons (arm_local (bind_local readSimple_local fun el attrs s =>
      (reqAttr el attrs "name").map fun n => EnvironmentVar.property n s) _)
    (armsCons (arm_local readSimple_local _) armsNil)) rfl

/-! ### The root -/

omit [F32Format] [ReadLimit] in
theorem readLoop_start (isEnd : XName → Bool) (el : XName) (arms : List (String × Arm σ)) (st : σ)
    (n : XName) (attrs) (ns) (l : List XEvent) {m : Nat} (hm : l.length + 1 < m) :
    readLoop .skip isEnd el arms m st (.start n attrs ns :: l) =
      match arms.lookup n.localName with
      | some act =>
        match act n attrs st l with
        | .ok (st', l') =>
          if l'.length ≤ l.length then readLoop .skip isEnd el arms (l'.length + 1) st' l' else .error .stuck
        | .error e => .error e
      | none =>
          match skipElem [n] l with
          | .ok l' =>
            if l'.length ≤ l.length then readLoop .skip isEnd el arms (l'.length + 1) st l' else .error .stuck
          | .error e => .error e := by
  obtain ⟨k, rfl⟩ : ∃ k, m = k + 1 := ⟨m - 1, by omega⟩
  have ih : ∀ st (l' : List XEvent), l'.length ≤ l.length →
      readLoop .skip isEnd el arms k st l' = readLoop .skip isEnd el arms (l'.length + 1) st l' :=
    fun st l' h => readLoop_fuel _ _ _ _ _ _ _ _ (by omega) (by omega)
  conv => lhs; unfold readLoop
  dsimp only
  cases arms.lookup n.localName with
  | some act =>
    dsimp only
    cases act n attrs st l with
    | error e => rfl
    | ok r =>
      obtain ⟨st', l'⟩ := r
      dsimp only
      split
      · exact ih _ _ ‹_›
      · rfl
  | none =>
    dsimp only
    cases skipElem [n] l with
    | error e => rfl
    | ok l' =>
      dsimp only
      split
      · exact ih _ _ ‹_›
      · rfl

omit [F32Format] [ReadLimit] in
/-- A loop that skips what it does not know gets over whole elements. -/
theorem loop_passes {isEnd : XName → Bool} {el : XName} {arms : List (String × Arm σ)}
    (harms : ∀ p ∈ arms, LocalArm p.1 p.2) : ∀ (content : List XNode) (st : σ), XNode.TameAll content →
    (∃ e, ∀ rest m, (XNode.eventsAll content ++ rest).length < m →
      readLoop .skip isEnd el arms m st (XNode.eventsAll content ++ rest) = .error e) ∨
    (∃ st', ∀ rest m, (XNode.eventsAll content ++ rest).length < m →
      readLoop .skip isEnd el arms m st (XNode.eventsAll content ++ rest) =
        readLoop .skip isEnd el arms (rest.length + 1) st' rest)
  | [], st, _ => .inr ⟨st, fun rest m hm => readLoop_fuel _ _ _ _ _ _ _ _ hm (Nat.lt_succ_self _)⟩
  | .chars s :: l, st, _ => .inl ⟨.unexpected el.localName, fun rest m hm => by
      obtain ⟨k, rfl⟩ : ∃ k, m = k + 1 := ⟨m - 1, by omega⟩
      rfl⟩
  | .cdata s :: l, st, _ => .inl ⟨.unexpected el.localName, fun rest m hm => by
      obtain ⟨k, rfl⟩ : ∃ k, m = k + 1 := ⟨m - 1, by omega⟩
      rfl⟩
  | .other :: l, st, _ => .inl ⟨.unexpected el.localName, fun rest m hm => by
      obtain ⟨k, rfl⟩ : ∃ k, m = k + 1 := ⟨m - 1, by omega⟩
      rfl⟩
  | .elem n attrs ns c :: l, st, ht => by
    simp only [XNode.TameAll, XNode.Tame] at ht
    have hev : ∀ rest, XNode.eventsAll (.elem n attrs ns c :: l) ++ rest =
        .start n attrs ns :: (XNode.eventsAll c ++ .stop n :: (XNode.eventsAll l ++ rest)) := by
      intro rest
      simp [XNode.eventsAll, XNode.events]
    have step : ∀ st', (∀ rest m, (XNode.eventsAll (.elem n attrs ns c :: l) ++ rest).length < m →
        readLoop .skip isEnd el arms m st (XNode.eventsAll (.elem n attrs ns c :: l) ++ rest) =
          readLoop .skip isEnd el arms ((XNode.eventsAll l ++ rest).length + 1) st'
            (XNode.eventsAll l ++ rest)) →
        (∃ e, ∀ rest m, (XNode.eventsAll (.elem n attrs ns c :: l) ++ rest).length < m →
          readLoop .skip isEnd el arms m st (XNode.eventsAll (.elem n attrs ns c :: l) ++ rest) = .error e) ∨
        (∃ st', ∀ rest m, (XNode.eventsAll (.elem n attrs ns c :: l) ++ rest).length < m →
          readLoop .skip isEnd el arms m st (XNode.eventsAll (.elem n attrs ns c :: l) ++ rest) =
            readLoop .skip isEnd el arms (rest.length + 1) st' rest) := by
      intro st' h
      rcases loop_passes (isEnd := isEnd) (el := el) harms l st' ht.2 with ⟨e, he⟩ | ⟨s, hs⟩
      · exact .inl ⟨e, fun rest m hm => by rw [h rest m hm, he _ _ (by omega)]⟩
      · exact .inr ⟨s, fun rest m hm => by rw [h rest m hm, hs _ _ (by omega)]⟩
    cases harm : arms.lookup n.localName with
    | some act =>
      have hact : LocalArm n.localName act := harms _ (mem_of_lookup harm)
      obtain ⟨o, ho⟩ := hact n attrs st c rfl ht.1.1 ht.1.2
      cases o with
      | error e =>
        refine .inl ⟨e, fun rest m hm => ?_⟩
        rw [hev] at hm ⊢
        rw [readLoop_start _ _ _ _ _ _ _ _ (by simpa using hm), harm]
        dsimp only
        rw [ho]
        rfl
      | ok st' =>
        refine step st' fun rest m hm => ?_
        rw [hev] at hm ⊢
        rw [readLoop_start _ _ _ _ _ _ _ _ (by simpa using hm), harm]
        dsimp only
        rw [ho]
        simp only [Except.map]
        rw [if_pos (by simp; omega)]
    | none =>
      refine step st fun rest m hm => ?_
      rw [hev] at hm ⊢
      rw [readLoop_start _ _ _ _ _ _ _ _ (by simpa using hm), harm]
      dsimp only
      rw [skipElem_eventsAll]
      simp only [skipElem, if_true]
      rw [if_pos (by simp; omega)]

theorem Bom.readBody_lax (v : SpecVersion) {el n : XName} {children content : List XNode}
    {attrs : List (String × String)} {ns : Option String} {rest : List XEvent}
    (ht : XNode.TameAll children) (h : n.localName ∉ Bom.tags v) :
    Bom.readBody v el (XNode.eventsAll children ++ ((XNode.elem n attrs ns content).events ++ rest)) =
      Bom.readBody v el (XNode.eventsAll children ++ rest) := by
  have hk : (Bom.arms v).map (·.1) = Bom.tags v := by cases v <;> rfl
  have hl : (Bom.arms v).lookup n.localName = none := by
    rw [List.lookup_eq_none_iff]
    intro p hp
    simp only [bne_iff_ne, ne_eq, beq_eq_false_iff_ne]
    intro e
    exact h (hk ▸ List.mem_map.2 ⟨p, hp, e.symm⟩)
  have hf : ∀ st : Bom.Vars, readLoop .skip (fun n => n.localName = "bom") el (Bom.arms v)
      (((XNode.elem n attrs ns content).events ++ rest).length + 1) st
        ((XNode.elem n attrs ns content).events ++ rest) =
      readLoop .skip (fun n => n.localName = "bom") el (Bom.arms v) (rest.length + 1) st rest := by
    intro st
    have hev : XNode.events (.elem n attrs ns content) ++ rest =
        .start n attrs ns :: (XNode.eventsAll content ++ .stop n :: rest) := by
      simp [XNode.events]
    rw [hev, readLoop_start _ _ _ _ _ _ _ _ (by simp), hl]
    dsimp only
    rw [skipElem_eventsAll]
    simp only [skipElem, if_true]
    rw [if_pos (by simp; omega)]
  unfold Bom.readBody
  rcases loop_passes (isEnd := fun n => n.localName = "bom") (el := el) (Bom.arms_local v) children {} ht
    with ⟨e, he⟩ | ⟨s, hs⟩
  · rw [he _ _ (by omega), he _ _ (by omega)]
  · rw [hs _ _ (by omega), hs _ _ (by omega), hf]

end Cdx
