import Verif.Lemmas.Xml
import Verif.Lemmas.Json
import Verif.Spec.Format.Parts
import Verif.Lemmas.Format.License

set_option linter.unusedSectionVars false
set_option linter.unusedSimpArgs false
set_option linter.unusedVariables false

/-!
# Lemmas on the file formats: signatures, dependencies, compositions, code changes, parts of vulnerabilities
-/

namespace Cdx

theorem Algorithm.json_ne_null {a : Algorithm} : Algorithm.toJson a ≠ .null := by
  rw [Algorithm.toJson]
  split <;> exact nofun

theorem Algorithm.json_rt {a : Algorithm} (h : Stable Algorithm.display Algorithm.new a) :
    Algorithm.ofJson (Algorithm.toJson a) = .ok a := by
  have e : Algorithm.new a.display = a := h
  rw [Algorithm.toJson, e]
  cases a with
  | unknown s => exact congrArg Except.ok e
  | _ => rfl

theorem Signer.json_ne_null {x : Signer} :
    Signer.toJson x ≠ .null := Json.mk_ne_null _

theorem Signer.json_rt {x : Signer} (h : Signer.JsonOk x) :
    Signer.ofJson (Signer.toJson x) = .ok x := by
  have hn : ["algorithm", "value"].Nodup := by decide
  refine bindOk (Json.fields_mk _) ?_
  refine bindOk (Json.req_mk hn (.head _) (Algorithm.json_rt h.algorithm)) ?_
  refine bindOk (Json.req_mk hn (.tail _ (.head _)) (rfl)) ?_
  rfl

theorem Signer.xml_body_wf {loose : Bool} {x : Signer} : WellFormed loose (
    ((fun e => writeSimple "algorithm" (Algorithm.specName e)) x.algorithm) ++
    (((writeSimple "value") x.value))) :=
  (.append (writeSimple_wf)
    (writeSimple_wf))

theorem Signer.xml_one {loose : Bool} {tag : String} {x : Signer} :
    OneElement loose tag (Signer.writeXml tag x) :=
  writeElem_one goodNil (Signer.xml_body_wf)

theorem Signer.xml_wf {loose : Bool} {tag : String} {x : Signer} :
    WellFormed loose (Signer.writeXml tag x) :=
  (Signer.xml_one).wf

theorem Signer.arms_local :
    ∀ p ∈ Signer.arms, LocalArm p.1 p.2 :=
  (armsCons (arm_local (map_local readSimple_local Algorithm.ofSpecName) _)
    (armsCons (arm_local readSimple_local _)
    armsNil))

theorem Signer.xml_local {tag : String} :
    LocalAt tag Signer.readXml :=
  readStruct_local (by simp) (Signer.arms_local)

theorem Signer.xml_reads {ns : Option String} {tag : String} {x : Signer} (h : Signer.XmlOk x) :
    Reads ns (Signer.writeXml tag x) tag Signer.readXml x := by
  have hn : ["algorithm", "value"].Nodup := by decide
  refine reads_struct (Signer.xml_body_wf) rfl
      (Goes.append (Goes.one (reads_enum h.algorithm) (.head _) hn)
        (Goes.one (reads_simple h.value) (.tail _ (.head _)) hn)
        (writeSimple_wf)) ?_
  rfl

theorem Signature.json_ne_null {x : Signature} : Signature.toJson x ≠ .null := by
  cases x <;> exact nofun

theorem Signature.json_rt {x : Signature} (h : Signature.JsonOk x) :
    Signature.ofJson (Signature.toJson x) = .ok x := by
  cases x with
  | signers l =>
    have : Json.array Signer.ofJson (Signature.toJson (.signers l)) = .ok l :=
      Json.array_id fun y hy => Signer.json_rt (h y hy)
    rw [Signature.ofJson, this]
  | chain l => exact h.elim
  | single s => exact Json.map_ok (Signer.json_rt h)

theorem Signature.xml_one {loose : Bool} {x : Signature} :
    OneElement loose "signature" (Signature.writeXml x) := by
  cases x with
  | signers l => exact writeElem_one goodNil (writeList_wf fun _ _ => Signer.xml_wf)
  | chain l => exact writeElem_one goodNil (writeList_wf fun _ _ => Signer.xml_wf)
  | single s => exact Signer.xml_one

theorem Signature.xml_wf {loose : Bool} {x : Signature} :
    WellFormed loose (Signature.writeXml x) := Signature.xml_one.wf

theorem Signature.loop_of_fields (el : XName) : ∀ fuel st evs r,
    readLoop .fail (fun n => n = el) el Signature.arms fuel st evs = .ok r →
    Signature.loop el fuel st evs = .ok r
  | 0, _, _, _, h => nomatch h
  | _ + 1, _, [], _, h => nomatch h
  | fuel + 1, st, .start n attrs ns :: l, r, h => by
    unfold readLoop at h
    dsimp only at h
    simp only [Signature.loop, Signature.step]
    cases harm : Signature.arms.lookup n.localName with
    | none => rw [harm] at h; exact nomatch h
    | some act =>
      rw [harm] at h
      simp only at h ⊢
      cases ha : act n attrs st l with
      | error e => rw [ha] at h; exact nomatch h
      | ok p =>
        obtain ⟨st', l'⟩ := p
        rw [ha] at h
        simp only [Except.map] at h ⊢
        split at h
        · rw [if_pos ‹_›]
          exact Signature.loop_of_fields el fuel st' l' r h
        · exact nomatch h
  | fuel + 1, st, .stop n :: l, r, h => by
    unfold readLoop at h
    dsimp only at h
    simp only [Signature.loop, Signature.step]
    by_cases hn : n = el
    · simp only [hn, decide_true, if_true] at h ⊢
      exact h
    · simp [hn] at h
  | fuel + 1, st, .chars _ :: l, r, h => by simp [readLoop] at h
  | fuel + 1, st, .cdata _ :: l, r, h => by simp [readLoop] at h
  | fuel + 1, st, .other :: l, r, h => by simp [readLoop] at h
  | fuel + 1, st, .startDocument :: l, r, h => by simp [readLoop] at h
  | fuel + 1, st, .endDocument :: l, r, h => by simp [readLoop] at h

theorem Signature.reads_of_struct {ns : Option String} {w : List WEvent} {y : Signature}
    (h : Reads ns w "signature" (readStruct .fail (fun _ _ => .ok ()) ({} : Signature.Vars)
      Signature.arms fun el _ st => Signature.fin el st) y) :
    Reads ns w "signature" Signature.readXml y := by
  obtain ⟨attrs, body, hd, hr⟩ := h
  refine ⟨attrs, body, hd, fun rest => ?_⟩
  have h := hr rest
  simp only [readStruct, bind, Except.bind] at h
  cases hf : readFields .fail ⟨"signature", ns, none⟩ Signature.arms {}
      (body ++ XEvent.stop ⟨"signature", ns, none⟩ :: rest) with
  | error e => rw [hf] at h; exact nomatch h
  | ok r =>
    rw [hf] at h
    rw [Signature.readXml, Signature.loop_of_fields _ _ _ _ r hf]
    exact h

theorem Signature.xml_reads {ns : Option String} {x : Signature} (h : Signature.XmlOk x) :
    Reads ns (Signature.writeXml x) "signature" Signature.readXml x := by
  have hn : ["signers", "chain", "algorithm", "value"].Nodup := by decide
  cases x with
  | signers l =>
    exact Signature.reads_of_struct (reads_struct (writeList_wf fun _ _ => Signer.xml_wf) rfl
      (Goes.one (reads_list (fun y hy => Signer.xml_reads (h y hy)) (fun _ _ => Signer.xml_wf))
        (.head _) hn) rfl)
  | chain l =>
    exact Signature.reads_of_struct (reads_struct (writeList_wf fun _ _ => Signer.xml_wf) rfl
      (Goes.one (reads_list (fun y hy => Signer.xml_reads (h y hy)) (fun _ _ => Signer.xml_wf))
        (.tail _ (.head _)) hn) rfl)
  | single s =>
    refine Signature.reads_of_struct (reads_struct Signer.xml_body_wf rfl
      (Goes.append (Goes.one (reads_simple h.algorithm.2) (.tail _ (.tail _ (.head _))) hn)
        (Goes.one (reads_simple h.value) (.tail _ (.tail _ (.tail _ (.head _)))) hn)
        writeSimple_wf) ?_)
    have e : Algorithm.ofSpecName (Algorithm.specName s.algorithm) = s.algorithm := h.algorithm.1
    obtain ⟨a, b⟩ := s
    simp only at e
    simp only [Signature.fin, required, bind, Except.bind, e]

theorem Signature.loop_fuel (el : XName) : ∀ n m st (evs : List XEvent),
    evs.length < n → evs.length < m → Signature.loop el n st evs = Signature.loop el m st evs
  | 0, _, _, _, h, _ => by omega
  | _, 0, _, _, _, h => by omega
  | n + 1, m + 1, st, [], _, _ => rfl
  | n + 1, m + 1, st, e :: l, hn, hm => by
    simp only [List.length_cons] at hn hm
    simp only [Signature.loop]
    cases Signature.step el st e l with
    | error x => rfl
    | ok r =>
      obtain ⟨b, st', l'⟩ := r
      cases b with
      | true => rfl
      | false =>
        simp only
        split
        · exact Signature.loop_fuel el n m st' l' (by omega) (by omega)
        · rfl

theorem Signature.arms_local : ∀ p ∈ Signature.arms, LocalArm p.1 p.2 :=
  armsCons (arm_local (readList_local Signer.xml_local) _)
    (armsCons (arm_local (readList_local Signer.xml_local) _)
    (armsCons (arm_local readSimple_local _) (armsCons (arm_local readSimple_local _) armsNil)))

theorem Signature.loop_next {el : XName} {st st' : Signature.Vars} {e : XEvent}
    {l l' : List XEvent} (hl : l'.length ≤ l.length)
    (h : Signature.step el st e l = .ok (false, st', l')) :
    Signature.loop el ((e :: l).length + 1) st (e :: l) =
      Signature.loop el (l'.length + 1) st' l' := by
  rw [Signature.loop, h]
  simp only
  rw [if_pos hl]
  exact Signature.loop_fuel _ _ _ _ _ (by simp only [List.length_cons]; omega) (by omega)

theorem Signature.loop_content (el : XName) (hel : el.localName = "signature") :
    ∀ (content : List XNode) (st : Signature.Vars),
    (∀ x ∈ content, x.isElem = true) → XNode.TameAll content →
    (∃ e, ∀ rest, Signature.loop el ((XNode.eventsAll content ++ .stop el :: rest).length + 1) st
      (XNode.eventsAll content ++ .stop el :: rest) = .error e) ∨
    (∃ st', ∀ rest, Signature.loop el ((XNode.eventsAll content ++ .stop el :: rest).length + 1) st
      (XNode.eventsAll content ++ .stop el :: rest) = .ok (st', rest))
  | [], st, _, _ => .inr ⟨st, fun rest => by simp [XNode.eventsAll, Signature.loop, Signature.step]⟩
  | .chars s :: l, st, he, _ => absurd (he _ (.head _)) (by simp [XNode.isElem])
  | .cdata s :: l, st, he, _ => absurd (he _ (.head _)) (by simp [XNode.isElem])
  | .other :: l, st, he, _ => absurd (he _ (.head _)) (by simp [XNode.isElem])
  | .elem n attrs ns c :: l, st, he, ht => by
    simp only [XNode.TameAll, XNode.Tame] at ht
    have hev : ∀ rest, XNode.eventsAll (.elem n attrs ns c :: l) ++ .stop el :: rest =
        .start n attrs ns ::
          (XNode.eventsAll c ++ .stop n :: (XNode.eventsAll l ++ .stop el :: rest)) := by
      intro rest
      simp [XNode.events, XNode.eventsAll]
    have next : (∃ e, ∀ rest, Signature.step el st (.start n attrs ns)
          (XNode.eventsAll c ++ .stop n :: rest) = .error e) ∨
        (∃ st', ∀ rest, Signature.step el st (.start n attrs ns)
          (XNode.eventsAll c ++ .stop n :: rest) = .ok (false, st', rest)) := by
      simp only [Signature.step]
      cases harm : Signature.arms.lookup n.localName with
      | some act =>
        obtain ⟨o, ho⟩ := Signature.arms_local _ (mem_of_lookup harm) n attrs st c rfl ht.1.1 ht.1.2
        cases o with
        | error e => exact .inl ⟨e, fun rest => by
            simp only; rw [show act n attrs st _ = _ from ho rest]; rfl⟩
        | ok st' => exact .inr ⟨st', fun rest => by
            simp only; rw [show act n attrs st _ = _ from ho rest]; rfl⟩
      | none =>
        simp only [Signature.other]
        by_cases hn : n = el
        · subst hn
          obtain ⟨o, ho⟩ := Signer.xml_local n [] c rfl ht.1.1 ht.1.2
          cases o with
          | error e => exact .inl ⟨e, fun rest => by rw [ho]; rfl⟩
          | ok s => exact .inr ⟨{ st with signature := some (.single s) }, fun rest => by
              rw [ho]; rfl⟩
        · left
          have harms : ∀ p ∈ Signer.arms, LocalArm p.1 p.2 :=
            armsCons (arm_local (map_local readSimple_local _) _)
              (armsCons (arm_local readSimple_local _) armsNil)
          rcases passes_eventsAll (mode := .fail) (el := el) harms c {} (fun h => nomatch h) ht.1.2
            with ⟨e, h⟩ | ⟨st', h⟩
          · exact ⟨e, fun rest => by
              simp only [Signer.readXml, readStruct, bind, Except.bind]; rw [h]⟩
          · exact ⟨_, fun rest => by
              simp only [Signer.readXml, readStruct, bind, Except.bind]
              rw [h, readFields_stop_other _ _ _ _ _ _ hn, if_neg nofun]⟩
    rcases next with ⟨e, h⟩ | ⟨st', h⟩
    · exact .inl ⟨e, fun rest => by rw [hev, Signature.loop, h]⟩
    · rcases Signature.loop_content el hel l st' (fun x hx => he x (.tail _ hx)) ht.2 with
        ⟨e, h'⟩ | ⟨st'', h'⟩
      · exact .inl ⟨e, fun rest => by
          rw [hev, Signature.loop_next (by simp; omega) (h _)]; exact h' rest⟩
      · exact .inr ⟨st'', fun rest => by
          rw [hev, Signature.loop_next (by simp; omega) (h _)]; exact h' rest⟩

theorem Signature.xml_local : LocalAt "signature" Signature.readXml := by
  intro el attrs content h1 h2 h3
  rcases Signature.loop_content el h1 content {} (h2.2 rfl) h3 with ⟨e, h⟩ | ⟨st, h⟩
  · exact ⟨.error e, fun rest => by simp only [Signature.readXml, bind, Except.bind]; rw [h]; rfl⟩
  · refine ⟨Signature.fin el st, fun rest => ?_⟩
    simp only [Signature.readXml, bind, Except.bind]
    rw [h]
    dsimp only
    cases Signature.fin el st <;> rfl

theorem Dependency.json_ne_null {x : Dependency} :
    Dependency.toJson x ≠ .null := Json.mk_ne_null _

theorem Dependency.json_rt {x : Dependency} :
    Dependency.ofJson (Dependency.toJson x) = .ok x := by
  have hn : ["ref", "dependsOn"].Nodup := by decide
  refine bindOk (Json.fields_mk _) ?_
  refine bindOk (Json.req_mk hn (.head _) (rfl)) ?_
  refine bindOk (Json.orEmpty_id hn (.tail _ (.head _)) (fun y137 hy137 => rfl)) ?_
  rfl

theorem Dependency.xml_body_wf {loose : Bool} {x : Dependency} : WellFormed loose (
    (x.dependencies.flatMap (writeRef "dependency"))) :=
  (flatMap_wf fun _ _ => writeRef_wf)

theorem Dependency.xml_one {loose : Bool} {x : Dependency} :
    OneElement loose "dependency" (Dependency.writeXml x) :=
  writeElem_one (goodAttrs (by decide : ["ref"].Nodup)) (Dependency.xml_body_wf)

theorem Dependency.xml_wf {loose : Bool} {x : Dependency} :
    WellFormed loose (Dependency.writeXml x) :=
  (Dependency.xml_one).wf

theorem Dependency.arms_local :
    ∀ p ∈ Dependency.arms, LocalArm p.1 p.2 :=
  (armsCons (arm_local readRef_local _)
    armsNil)

theorem Dependency.xml_local {tag : String} :
    LocalAt tag Dependency.readXml :=
  readStruct_local (by simp) (Dependency.arms_local)

theorem Dependency.xml_reads {ns : Option String} {x : Dependency} :
    Reads ns (Dependency.writeXml x) "dependency" Dependency.readXml x := by
  have hn : ["dependency"].Nodup := by decide
  have ha : ["ref"].Nodup := by decide
  refine reads_struct (p := (x.dependencyRef)) (Dependency.xml_body_wf) ?_
      (Goes.inlineReq (fun o s => { s with dependencies := o }) (.head _) hn (fun _ _ => rfl) rfl (fun y140 hy140 => reads_ref) (fun _ => writeRef_wf)) ?_
  · refine bindOk (reqAttr_mk ha (.head _)) ?_
    exact congrArg Except.ok rfl
  · rfl

theorem Composition.json_ne_null {v : SpecVersion} {x : Composition} :
    Composition.toJson v x ≠ .null := Json.mk_ne_null _

theorem Composition.json_rt (v : SpecVersion) {x : Composition} (h : Composition.JsonOk v x) :
    Composition.ofJson v (Composition.toJson v x) = .ok (x.at v) := by
  cases v with
  | v1_3 =>
    have hn : ["aggregate", "assemblies", "dependencies"].Nodup := by decide
    refine bindOk (Json.fields_mk _) ?_
    refine bindOk rfl ?_
    refine bindOk (Json.req_mk hn (.head _) (Json.enum_rt h.aggregate)) ?_
    refine bindOk (Json.opt_id hn (.tail _ (.head _)) (fun y142 hy142 => Json.ofList_ne_null)
        (fun y142 hy142 => Json.array_id (fun y143 hy143 => rfl))) ?_
    refine bindOk (Json.opt_id hn (.tail _ (.tail _ (.head _))) (fun y144 hy144 => Json.ofList_ne_null)
        (fun y144 hy144 => Json.array_id (fun y145 hy145 => rfl))) ?_
    refine bindOk rfl ?_
    refine bindOk rfl ?_
    rfl
  | v1_4 =>
    have hn : ["aggregate", "assemblies", "dependencies", "signature"].Nodup := by decide
    refine bindOk (Json.fields_mk _) ?_
    refine bindOk rfl ?_
    refine bindOk (Json.req_mk hn (.head _) (Json.enum_rt h.aggregate)) ?_
    refine bindOk (Json.opt_id hn (.tail _ (.head _)) (fun y146 hy146 => Json.ofList_ne_null)
        (fun y146 hy146 => Json.array_id (fun y147 hy147 => rfl))) ?_
    refine bindOk (Json.opt_id hn (.tail _ (.tail _ (.head _))) (fun y148 hy148 => Json.ofList_ne_null)
        (fun y148 hy148 => Json.array_id (fun y149 hy149 => rfl))) ?_
    refine bindOk rfl ?_
    refine bindOk (Json.opt_id hn (.tail _ (.tail _ (.tail _ (.head _)))) (fun y150 hy150 => Signature.json_ne_null)
        (fun y150 hy150 => Signature.json_rt ((h.signature nofun) y150 hy150))) ?_
    rfl
  | v1_5 =>
    have hn : ["aggregate", "assemblies", "dependencies", "signature", "bomRef", "vulnerabilities"].Nodup := by decide
    refine bindOk (Json.fields_mk _) ?_
    refine bindOk (Json.opt_id hn (.tail _ (.tail _ (.tail _ (.tail _ (.head _))))) (fun y151 hy151 => Json.str_ne_null)
        (fun y151 hy151 => rfl)) ?_
    refine bindOk (Json.req_mk hn (.head _) (Json.enum_rt h.aggregate)) ?_
    refine bindOk (Json.opt_id hn (.tail _ (.head _)) (fun y152 hy152 => Json.ofList_ne_null)
        (fun y152 hy152 => Json.array_id (fun y153 hy153 => rfl))) ?_
    refine bindOk (Json.opt_id hn (.tail _ (.tail _ (.head _))) (fun y154 hy154 => Json.ofList_ne_null)
        (fun y154 hy154 => Json.array_id (fun y155 hy155 => rfl))) ?_
    refine bindOk (Json.opt_id hn (.tail _ (.tail _ (.tail _ (.tail _ (.tail _ (.head _)))))) (fun y156 hy156 => Json.ofList_ne_null)
        (fun y156 hy156 => Json.array_id (fun y157 hy157 => rfl))) ?_
    refine bindOk (Json.opt_id hn (.tail _ (.tail _ (.tail _ (.head _)))) (fun y158 hy158 => Signature.json_ne_null)
        (fun y158 hy158 => Signature.json_rt ((h.signature nofun) y158 hy158))) ?_
    rfl

theorem Composition.xml_body_wf {loose : Bool} {v : SpecVersion} {x : Composition} : WellFormed loose (
    ((fun e => writeSimple "aggregate" (AggregateType.display e)) x.aggregate) ++
    ((writeOpt (writeList "assemblies" (writeRef "assembly")) x.assemblies) ++
    ((writeOpt (writeList "dependencies" (writeRef "dependency")) x.dependencies) ++
    ((since15 v (writeOpt (writeList "vulnerabilities" (writeRef "vulnerability")) x.vulnerabilities) []) ++
    ((since14 v (writeOpt Signature.writeXml x.signature) [])))))) :=
  (.append (writeSimple_wf)
    (.append (writeOpt_wf fun _ _ => (writeList_wf fun _ _ => writeRef_wf))
    (.append (writeOpt_wf fun _ _ => (writeList_wf fun _ _ => writeRef_wf))
    (.append (since15_wf fun _ => (writeOpt_wf fun _ _ => (writeList_wf fun _ _ => writeRef_wf)))
    (since14_wf (writeOpt_wf fun _ _ => Signature.xml_wf))))))

theorem Composition.xml_one {loose : Bool} {v : SpecVersion} {x : Composition} :
    OneElement loose "composition" (Composition.writeXml v x) :=
  writeElem_one (goodAttrs (by decide : ["bom-ref"].Nodup)) (Composition.xml_body_wf)

theorem Composition.xml_wf {loose : Bool} {v : SpecVersion} {x : Composition} :
    WellFormed loose (Composition.writeXml v x) :=
  (Composition.xml_one).wf

theorem Composition.arms_local (v : SpecVersion) :
    ∀ p ∈ Composition.arms v, LocalArm p.1 p.2 :=
  (armsAppend (armsAppend (armsCons (arm_local (map_local readSimple_local AggregateType.new) _)
    (armsCons (arm_local (readListLax_local readRef_local) _)
    (armsCons (arm_local (readListLax_local readRef_local) _)
    armsNil)))
    (armsSince14 (armsCons (arm_local Signature.xml_local _)
    armsNil)))
    (armsSince15 (armsCons (arm_local (readListLax_local readRef_local) _)
    armsNil)))

theorem Composition.xml_local (v : SpecVersion) {tag : String} :
    LocalAt tag (Composition.readXml v) :=
  readStruct_local (by simp) (Composition.arms_local v)

theorem Composition.xml_reads (v : SpecVersion) {ns : Option String} {x : Composition} (h : Composition.XmlOk v x) :
    Reads ns (Composition.writeXml v x) "composition" (Composition.readXml v) (x.at v) := by
  cases v with
  | v1_3 =>
    have hn : ["aggregate", "assemblies", "dependencies"].Nodup := by decide
    have ha : ["bom-ref"].Nodup := by decide
    refine reads_struct (p := (none)) (Composition.xml_body_wf) ?_
        (Goes.append (Goes.one (reads_enum h.aggregate) (.head _) hn)
          (Goes.append (Goes.opt (fun o s => { s with assemblies := o }) (.tail _ (.head _)) hn (fun _ => rfl) rfl
            (fun y160 hy160 => reads_listLax (fun y161 hy161 => reads_ref) (fun _ _ => writeRef_wf)))
          (Goes.append (Goes.opt (fun o s => { s with dependencies := o }) (.tail _ (.tail _ (.head _))) hn (fun _ => rfl) rfl
            (fun y162 hy162 => reads_listLax (fun y163 hy163 => reads_ref) (fun _ _ => writeRef_wf)))
          (Goes.append (Goes.nil)
          (Goes.nil)
          .nil)
          (writeOpt_wf fun _ _ => (writeList_wf fun _ _ => writeRef_wf)))
          (writeOpt_wf fun _ _ => (writeList_wf fun _ _ => writeRef_wf)))
          (writeSimple_wf)) ?_
    · exact congrArg Except.ok rfl
    · rfl
  | v1_4 =>
    have hn : ["aggregate", "assemblies", "dependencies", "signature"].Nodup := by decide
    have ha : ["bom-ref"].Nodup := by decide
    refine reads_struct (p := (none)) (Composition.xml_body_wf) ?_
        (Goes.append (Goes.one (reads_enum h.aggregate) (.head _) hn)
          (Goes.append (Goes.opt (fun o s => { s with assemblies := o }) (.tail _ (.head _)) hn (fun _ => rfl) rfl
            (fun y164 hy164 => reads_listLax (fun y165 hy165 => reads_ref) (fun _ _ => writeRef_wf)))
          (Goes.append (Goes.opt (fun o s => { s with dependencies := o }) (.tail _ (.tail _ (.head _))) hn (fun _ => rfl) rfl
            (fun y166 hy166 => reads_listLax (fun y167 hy167 => reads_ref) (fun _ _ => writeRef_wf)))
          (Goes.append (Goes.nil)
          (Goes.opt (fun o s => { s with signature := o }) (.tail _ (.tail _ (.tail _ (.head _)))) hn (fun _ => rfl) rfl
            (fun y168 hy168 => Signature.xml_reads ((h.signature nofun) y168 hy168)))
          .nil)
          (writeOpt_wf fun _ _ => (writeList_wf fun _ _ => writeRef_wf)))
          (writeOpt_wf fun _ _ => (writeList_wf fun _ _ => writeRef_wf)))
          (writeSimple_wf)) ?_
    · exact congrArg Except.ok rfl
    · rfl
  | v1_5 =>
    have hn : ["aggregate", "assemblies", "dependencies", "signature", "vulnerabilities"].Nodup := by decide
    have ha : ["bom-ref"].Nodup := by decide
    refine reads_struct (p := (x.bomRef)) (Composition.xml_body_wf) ?_
        (Goes.append (Goes.one (reads_enum h.aggregate) (.head _) hn)
          (Goes.append (Goes.opt (fun o s => { s with assemblies := o }) (.tail _ (.head _)) hn (fun _ => rfl) rfl
            (fun y169 hy169 => reads_listLax (fun y170 hy170 => reads_ref) (fun _ _ => writeRef_wf)))
          (Goes.append (Goes.opt (fun o s => { s with dependencies := o }) (.tail _ (.tail _ (.head _))) hn (fun _ => rfl) rfl
            (fun y171 hy171 => reads_listLax (fun y172 hy172 => reads_ref) (fun _ _ => writeRef_wf)))
          (Goes.append (Goes.opt (fun o s => { s with vulnerabilities := o }) (.tail _ (.tail _ (.tail _ (.tail _ (.head _))))) hn (fun _ => rfl) rfl
            (fun y173 hy173 => reads_listLax (fun y174 hy174 => reads_ref) (fun _ _ => writeRef_wf)))
          (Goes.opt (fun o s => { s with signature := o }) (.tail _ (.tail _ (.tail _ (.head _)))) hn (fun _ => rfl) rfl
            (fun y175 hy175 => Signature.xml_reads ((h.signature nofun) y175 hy175)))
          (writeOpt_wf fun _ _ => (writeList_wf fun _ _ => writeRef_wf)))
          (writeOpt_wf fun _ _ => (writeList_wf fun _ _ => writeRef_wf)))
          (writeOpt_wf fun _ _ => (writeList_wf fun _ _ => writeRef_wf)))
          (writeSimple_wf)) ?_
    · exact congrArg Except.ok (optAttr_mk ha (.head _))
    · rfl

theorem IdentifiableAction.json_ne_null {x : IdentifiableAction} :
    IdentifiableAction.toJson x ≠ .null := Json.mk_ne_null _

theorem IdentifiableAction.json_rt {x : IdentifiableAction} :
    IdentifiableAction.ofJson (IdentifiableAction.toJson x) = .ok x := by
  have hn : ["timestamp", "name", "email"].Nodup := by decide
  refine bindOk (Json.fields_mk _) ?_
  refine bindOk (Json.opt_id hn (.head _) (fun y176 hy176 => Json.str_ne_null)
      (fun y176 hy176 => rfl)) ?_
  refine bindOk (Json.opt_id hn (.tail _ (.head _)) (fun y177 hy177 => Json.str_ne_null)
      (fun y177 hy177 => rfl)) ?_
  refine bindOk (Json.opt_id hn (.tail _ (.tail _ (.head _))) (fun y178 hy178 => Json.str_ne_null)
      (fun y178 hy178 => rfl)) ?_
  rfl

theorem IdentifiableAction.xml_body_wf {loose : Bool} {x : IdentifiableAction} : WellFormed loose (
    (writeOpt (writeSimple "timestamp") x.timestamp) ++
    ((writeOpt (writeSimple "name") x.name) ++
    ((writeOpt (writeSimple "email") x.email)))) :=
  (.append (writeOpt_wf fun _ _ => writeSimple_wf)
    (.append (writeOpt_wf fun _ _ => writeSimple_wf)
    (writeOpt_wf fun _ _ => writeSimple_wf)))

theorem IdentifiableAction.xml_one {loose : Bool} {tag : String} {x : IdentifiableAction} :
    OneElement loose tag (IdentifiableAction.writeXml tag x) :=
  writeElem_one goodNil (IdentifiableAction.xml_body_wf)

theorem IdentifiableAction.xml_wf {loose : Bool} {tag : String} {x : IdentifiableAction} :
    WellFormed loose (IdentifiableAction.writeXml tag x) :=
  (IdentifiableAction.xml_one).wf

theorem IdentifiableAction.arms_local :
    ∀ p ∈ IdentifiableAction.arms, LocalArm p.1 p.2 :=
  (armsCons (arm_local readSimple_local _)
    (armsCons (arm_local readSimple_local _)
    (armsCons (arm_local readSimple_local _)
    armsNil)))

theorem IdentifiableAction.xml_local {tag : String} :
    LocalAt tag IdentifiableAction.readXml :=
  readStruct_local (by simp) (IdentifiableAction.arms_local)

theorem IdentifiableAction.xml_reads {ns : Option String} {tag : String} {x : IdentifiableAction} (h : IdentifiableAction.XmlOk x) :
    Reads ns (IdentifiableAction.writeXml tag x) tag IdentifiableAction.readXml x := by
  have hn : ["timestamp", "name", "email"].Nodup := by decide
  refine reads_struct (IdentifiableAction.xml_body_wf) rfl
      (Goes.append (Goes.opt (fun o s => { s with timestamp := o }) (.head _) hn (fun _ => rfl) rfl
          (fun y182 hy182 => reads_simple (h.timestamp y182 hy182)))
        (Goes.append (Goes.opt (fun o s => { s with name := o }) (.tail _ (.head _)) hn (fun _ => rfl) rfl
          (fun y183 hy183 => reads_simple (h.name y183 hy183)))
        (Goes.opt (fun o s => { s with email := o }) (.tail _ (.tail _ (.head _))) hn (fun _ => rfl) rfl
          (fun y184 hy184 => reads_simple (h.email y184 hy184)))
        (writeOpt_wf fun _ _ => writeSimple_wf))
        (writeOpt_wf fun _ _ => writeSimple_wf)) ?_
  rfl

theorem Commit.json_ne_null {x : Commit} :
    Commit.toJson x ≠ .null := Json.mk_ne_null _

theorem Commit.json_rt {x : Commit} :
    Commit.ofJson (Commit.toJson x) = .ok x := by
  have hn : ["uid", "url", "author", "committer", "message"].Nodup := by decide
  refine bindOk (Json.fields_mk _) ?_
  refine bindOk (Json.opt_id hn (.head _) (fun y185 hy185 => Json.str_ne_null)
      (fun y185 hy185 => rfl)) ?_
  refine bindOk (Json.opt_id hn (.tail _ (.head _)) (fun y186 hy186 => Json.str_ne_null)
      (fun y186 hy186 => rfl)) ?_
  refine bindOk (Json.opt_id hn (.tail _ (.tail _ (.head _))) (fun y187 hy187 => IdentifiableAction.json_ne_null)
      (fun y187 hy187 => IdentifiableAction.json_rt)) ?_
  refine bindOk (Json.opt_id hn (.tail _ (.tail _ (.tail _ (.head _)))) (fun y188 hy188 => IdentifiableAction.json_ne_null)
      (fun y188 hy188 => IdentifiableAction.json_rt)) ?_
  refine bindOk (Json.opt_id hn (.tail _ (.tail _ (.tail _ (.tail _ (.head _))))) (fun y189 hy189 => Json.str_ne_null)
      (fun y189 hy189 => rfl)) ?_
  rfl

theorem Commit.xml_body_wf {loose : Bool} {x : Commit} : WellFormed loose (
    (writeOpt (writeSimple "uid") x.uid) ++
    ((writeOpt (writeSimple "url") x.url) ++
    ((writeOpt (IdentifiableAction.writeXml "author") x.author) ++
    ((writeOpt (IdentifiableAction.writeXml "committer") x.committer) ++
    ((writeOpt (writeSimple "message") x.message)))))) :=
  (.append (writeOpt_wf fun _ _ => writeSimple_wf)
    (.append (writeOpt_wf fun _ _ => writeSimple_wf)
    (.append (writeOpt_wf fun _ _ => IdentifiableAction.xml_wf)
    (.append (writeOpt_wf fun _ _ => IdentifiableAction.xml_wf)
    (writeOpt_wf fun _ _ => writeSimple_wf)))))

theorem Commit.xml_one {loose : Bool} {x : Commit} :
    OneElement loose "commit" (Commit.writeXml x) :=
  writeElem_one goodNil (Commit.xml_body_wf)

theorem Commit.xml_wf {loose : Bool} {x : Commit} :
    WellFormed loose (Commit.writeXml x) :=
  (Commit.xml_one).wf

theorem Commit.arms_local :
    ∀ p ∈ Commit.arms, LocalArm p.1 p.2 :=
  (armsCons (arm_local readSimple_local _)
    (armsCons (arm_local readSimple_local _)
    (armsCons (arm_local IdentifiableAction.xml_local _)
    (armsCons (arm_local IdentifiableAction.xml_local _)
    (armsCons (arm_local readSimple_local _)
    armsNil)))))

theorem Commit.xml_local {tag : String} :
    LocalAt tag Commit.readXml :=
  readStruct_local (by simp) (Commit.arms_local)

theorem Commit.xml_reads {ns : Option String} {x : Commit} (h : Commit.XmlOk x) :
    Reads ns (Commit.writeXml x) "commit" Commit.readXml x := by
  have hn : ["uid", "url", "author", "committer", "message"].Nodup := by decide
  refine reads_struct (Commit.xml_body_wf) rfl
      (Goes.append (Goes.opt (fun o s => { s with uid := o }) (.head _) hn (fun _ => rfl) rfl
          (fun y195 hy195 => reads_simple (h.uid y195 hy195)))
        (Goes.append (Goes.opt (fun o s => { s with url := o }) (.tail _ (.head _)) hn (fun _ => rfl) rfl
          (fun y196 hy196 => reads_simple (h.url y196 hy196)))
        (Goes.append (Goes.opt (fun o s => { s with author := o }) (.tail _ (.tail _ (.head _))) hn (fun _ => rfl) rfl
          (fun y197 hy197 => IdentifiableAction.xml_reads (h.author y197 hy197)))
        (Goes.append (Goes.opt (fun o s => { s with committer := o }) (.tail _ (.tail _ (.tail _ (.head _)))) hn (fun _ => rfl) rfl
          (fun y198 hy198 => IdentifiableAction.xml_reads (h.committer y198 hy198)))
        (Goes.opt (fun o s => { s with message := o }) (.tail _ (.tail _ (.tail _ (.tail _ (.head _))))) hn (fun _ => rfl) rfl
          (fun y199 hy199 => reads_simple (h.message y199 hy199)))
        (writeOpt_wf fun _ _ => IdentifiableAction.xml_wf))
        (writeOpt_wf fun _ _ => IdentifiableAction.xml_wf))
        (writeOpt_wf fun _ _ => writeSimple_wf))
        (writeOpt_wf fun _ _ => writeSimple_wf)) ?_
  rfl

theorem Diff.json_ne_null {x : Diff} :
    Diff.toJson x ≠ .null := Json.mk_ne_null _

theorem Diff.json_rt {x : Diff} (h : Diff.JsonOk x) :
    Diff.ofJson (Diff.toJson x) = .ok x := by
  have hn : ["text", "url"].Nodup := by decide
  refine bindOk (Json.fields_mk _) ?_
  refine bindOk (Json.opt_id hn (.head _) (fun y201 hy201 => AttachedText.json_ne_null)
      (fun y201 hy201 => AttachedText.json_rt (h.text y201 hy201))) ?_
  refine bindOk (Json.opt_id hn (.tail _ (.head _)) (fun y202 hy202 => Json.str_ne_null)
      (fun y202 hy202 => rfl)) ?_
  rfl

theorem Diff.xml_body_wf {loose : Bool} {x : Diff} : WellFormed loose (
    (writeOpt (AttachedText.writeXml "text") x.text) ++
    ((writeOpt (writeSimple "url") x.url))) :=
  (.append (writeOpt_wf fun _ _ => AttachedText.xml_wf)
    (writeOpt_wf fun _ _ => writeSimple_wf))

theorem Diff.xml_one {loose : Bool} {x : Diff} :
    OneElement loose "diff" (Diff.writeXml x) :=
  writeElem_one goodNil (Diff.xml_body_wf)

theorem Diff.xml_wf {loose : Bool} {x : Diff} :
    WellFormed loose (Diff.writeXml x) :=
  (Diff.xml_one).wf

theorem Diff.arms_local :
    ∀ p ∈ Diff.arms, LocalArm p.1 p.2 :=
  (armsCons (arm_local AttachedText.xml_local _)
    (armsCons (arm_local readSimple_local _)
    armsNil))

theorem Diff.xml_local {tag : String} :
    LocalAt tag Diff.readXml :=
  readStruct_local (by simp) (Diff.arms_local)

theorem Diff.xml_reads {ns : Option String} {x : Diff} (h : Diff.XmlOk x) :
    Reads ns (Diff.writeXml x) "diff" Diff.readXml x := by
  have hn : ["text", "url"].Nodup := by decide
  refine reads_struct (Diff.xml_body_wf) rfl
      (Goes.append (Goes.opt (fun o s => { s with text := o }) (.head _) hn (fun _ => rfl) rfl
          (fun y205 hy205 => AttachedText.xml_reads (h.text y205 hy205)))
        (Goes.opt (fun o s => { s with url := o }) (.tail _ (.head _)) hn (fun _ => rfl) rfl
          (fun y206 hy206 => reads_simple (h.url y206 hy206)))
        (writeOpt_wf fun _ _ => AttachedText.xml_wf)) ?_
  rfl

theorem Source.json_ne_null {x : Source} :
    Source.toJson x ≠ .null := Json.mk_ne_null _

theorem Source.json_rt {x : Source} :
    Source.ofJson (Source.toJson x) = .ok x := by
  have hn : ["name", "url"].Nodup := by decide
  refine bindOk (Json.fields_mk _) ?_
  refine bindOk (Json.opt_id hn (.head _) (fun y207 hy207 => Json.str_ne_null)
      (fun y207 hy207 => rfl)) ?_
  refine bindOk (Json.opt_id hn (.tail _ (.head _)) (fun y208 hy208 => Json.str_ne_null)
      (fun y208 hy208 => rfl)) ?_
  rfl

theorem Source.xml_body_wf {loose : Bool} {x : Source} : WellFormed loose (
    (writeOpt (writeSimple "name") x.name) ++
    ((writeOpt (writeSimple "url") x.url))) :=
  (.append (writeOpt_wf fun _ _ => writeSimple_wf)
    (writeOpt_wf fun _ _ => writeSimple_wf))

theorem Source.xml_one {loose : Bool} {x : Source} :
    OneElement loose "source" (Source.writeXml x) :=
  writeElem_one goodNil (Source.xml_body_wf)

theorem Source.xml_wf {loose : Bool} {x : Source} :
    WellFormed loose (Source.writeXml x) :=
  (Source.xml_one).wf

theorem Source.arms_local :
    ∀ p ∈ Source.arms, LocalArm p.1 p.2 :=
  (armsCons (arm_local readSimple_local _)
    (armsCons (arm_local readSimple_local _)
    armsNil))

theorem Source.xml_local {tag : String} :
    LocalAt tag Source.readXml :=
  readStruct_local (by simp) (Source.arms_local)

theorem Source.xml_reads {ns : Option String} {x : Source} (h : Source.XmlOk x) :
    Reads ns (Source.writeXml x) "source" Source.readXml x := by
  have hn : ["name", "url"].Nodup := by decide
  refine reads_struct (Source.xml_body_wf) rfl
      (Goes.append (Goes.opt (fun o s => { s with name := o }) (.head _) hn (fun _ => rfl) rfl
          (fun y211 hy211 => reads_simple (h.name y211 hy211)))
        (Goes.opt (fun o s => { s with url := o }) (.tail _ (.head _)) hn (fun _ => rfl) rfl
          (fun y212 hy212 => reads_simple (h.url y212 hy212)))
        (writeOpt_wf fun _ _ => writeSimple_wf)) ?_
  rfl

theorem Issue.json_ne_null {x : Issue} :
    Issue.toJson x ≠ .null := Json.mk_ne_null _

theorem Issue.json_rt {x : Issue} (h : Issue.JsonOk x) :
    Issue.ofJson (Issue.toJson x) = .ok x := by
  have hn : ["type", "id", "name", "description", "source", "references"].Nodup := by decide
  refine bindOk (Json.fields_mk _) ?_
  refine bindOk (Json.req_mk hn (.head _) (Json.enum_rt h.issueType)) ?_
  refine bindOk (Json.opt_id hn (.tail _ (.head _)) (fun y213 hy213 => Json.str_ne_null)
      (fun y213 hy213 => rfl)) ?_
  refine bindOk (Json.opt_id hn (.tail _ (.tail _ (.head _))) (fun y214 hy214 => Json.str_ne_null)
      (fun y214 hy214 => rfl)) ?_
  refine bindOk (Json.opt_id hn (.tail _ (.tail _ (.tail _ (.head _)))) (fun y215 hy215 => Json.str_ne_null)
      (fun y215 hy215 => rfl)) ?_
  refine bindOk (Json.opt_id hn (.tail _ (.tail _ (.tail _ (.tail _ (.head _))))) (fun y216 hy216 => Source.json_ne_null)
      (fun y216 hy216 => Source.json_rt)) ?_
  refine bindOk (Json.opt_id hn (.tail _ (.tail _ (.tail _ (.tail _ (.tail _ (.head _)))))) (fun y217 hy217 => Json.ofList_ne_null)
      (fun y217 hy217 => Json.array_id (fun y218 hy218 => rfl))) ?_
  rfl

theorem Issue.xml_body_wf {loose : Bool} {x : Issue} : WellFormed loose (
    (writeOpt (writeSimple "id") x.id) ++
    ((writeOpt (writeSimple "name") x.name) ++
    ((writeOpt (writeSimple "description") x.description) ++
    ((writeOpt (fun c => if Source.willWrite c then Source.writeXml c else []) x.source) ++
    ((writeOpt (writeList "references" (writeSimple "url")) x.references)))))) :=
  (.append (writeOpt_wf fun _ _ => writeSimple_wf)
    (.append (writeOpt_wf fun _ _ => writeSimple_wf)
    (.append (writeOpt_wf fun _ _ => writeSimple_wf)
    (.append (writeOpt_wf fun _ _ => (if_wf Source.xml_wf))
    (writeOpt_wf fun _ _ => (writeList_wf fun _ _ => writeSimple_wf))))))

theorem Issue.xml_one {loose : Bool} {x : Issue} :
    OneElement loose "issue" (Issue.writeXml x) :=
  writeElem_one (goodAttrs (by decide : ["type"].Nodup)) (Issue.xml_body_wf)

theorem Issue.xml_wf {loose : Bool} {x : Issue} :
    WellFormed loose (Issue.writeXml x) :=
  (Issue.xml_one).wf

theorem Issue.arms_local :
    ∀ p ∈ Issue.arms, LocalArm p.1 p.2 :=
  (armsCons (arm_local readSimple_local _)
    (armsCons (arm_local readSimple_local _)
    (armsCons (arm_local readSimple_local _)
    (armsCons (arm_local Source.xml_local _)
    (armsCons (arm_local (readList_local readSimple_local) _)
    armsNil)))))

theorem Issue.xml_local {tag : String} :
    LocalAt tag Issue.readXml :=
  readStruct_local (by simp) (Issue.arms_local)

theorem Issue.xml_reads {ns : Option String} {x : Issue} (h : Issue.XmlOk x) :
    Reads ns (Issue.writeXml x) "issue" Issue.readXml x := by
  have hn : ["id", "name", "description", "source", "references"].Nodup := by decide
  have ha : ["type"].Nodup := by decide
  refine reads_struct (p := (IssueClassification.display x.issueType)) (Issue.xml_body_wf) ?_
      (Goes.append (Goes.opt (fun o s => { s with id := o }) (.head _) hn (fun _ => rfl) rfl
          (fun y225 hy225 => reads_simple (h.id y225 hy225)))
        (Goes.append (Goes.opt (fun o s => { s with name := o }) (.tail _ (.head _)) hn (fun _ => rfl) rfl
          (fun y226 hy226 => reads_simple (h.name y226 hy226)))
        (Goes.append (Goes.opt (fun o s => { s with description := o }) (.tail _ (.tail _ (.head _))) hn (fun _ => rfl) rfl
          (fun y227 hy227 => reads_simple (h.description y227 hy227)))
        (Goes.append (Goes.opt (fun o s => { s with source := o }) (.tail _ (.tail _ (.tail _ (.head _)))) hn (fun _ => rfl) rfl
          (fun y228 hy228 => reads_if (h.source y228 hy228).2 (Source.xml_reads (h.source y228 hy228).1)))
        (Goes.opt (fun o s => { s with references := o }) (.tail _ (.tail _ (.tail _ (.tail _ (.head _))))) hn (fun _ => rfl) rfl
          (fun y229 hy229 => reads_list (fun y230 hy230 => reads_simple ((h.references y229 hy229) y230 hy230)) (fun _ _ => writeSimple_wf)))
        (writeOpt_wf fun _ _ => (if_wf Source.xml_wf)))
        (writeOpt_wf fun _ _ => writeSimple_wf))
        (writeOpt_wf fun _ _ => writeSimple_wf))
        (writeOpt_wf fun _ _ => writeSimple_wf)) ?_
  · refine bindOk (reqAttr_mk ha (.head _)) ?_
    exact congrArg Except.ok rfl
  · show Except.ok _ = Except.ok _
    apply congrArg Except.ok
    rw [show IssueClassification.new (IssueClassification.display x.issueType) = x.issueType from h.issueType]

theorem Patch.json_ne_null {x : Patch} :
    Patch.toJson x ≠ .null := Json.mk_ne_null _

theorem Patch.json_rt {x : Patch} (h : Patch.JsonOk x) :
    Patch.ofJson (Patch.toJson x) = .ok x := by
  have hn : ["type", "diff", "resolves"].Nodup := by decide
  refine bindOk (Json.fields_mk _) ?_
  refine bindOk (Json.req_mk hn (.head _) (Json.enum_rt h.patchType)) ?_
  refine bindOk (Json.opt_id hn (.tail _ (.head _)) (fun y234 hy234 => Diff.json_ne_null)
      (fun y234 hy234 => Diff.json_rt (h.diff y234 hy234))) ?_
  refine bindOk (Json.opt_id hn (.tail _ (.tail _ (.head _))) (fun y235 hy235 => Json.ofList_ne_null)
      (fun y235 hy235 => Json.array_id (fun y236 hy236 => Issue.json_rt ((h.resolves y235 hy235) y236 hy236)))) ?_
  rfl

theorem Patch.xml_body_wf {loose : Bool} {x : Patch} : WellFormed loose (
    (writeOpt (fun c => if Diff.willWrite c then Diff.writeXml c else []) x.diff) ++
    ((writeOpt (writeList "resolves" Issue.writeXml) x.resolves))) :=
  (.append (writeOpt_wf fun _ _ => (if_wf Diff.xml_wf))
    (writeOpt_wf fun _ _ => (writeList_wf fun _ _ => Issue.xml_wf)))

theorem Patch.xml_one {loose : Bool} {x : Patch} :
    OneElement loose "patch" (Patch.writeXml x) :=
  writeElem_one (goodAttrs (by decide : ["type"].Nodup)) (Patch.xml_body_wf)

theorem Patch.xml_wf {loose : Bool} {x : Patch} :
    WellFormed loose (Patch.writeXml x) :=
  (Patch.xml_one).wf

theorem Patch.arms_local :
    ∀ p ∈ Patch.arms, LocalArm p.1 p.2 :=
  (armsCons (arm_local Diff.xml_local _)
    (armsCons (arm_local (readList_local Issue.xml_local) _)
    armsNil))

theorem Patch.xml_local {tag : String} :
    LocalAt tag Patch.readXml :=
  readStruct_local (by simp) (Patch.arms_local)

theorem Patch.xml_reads {ns : Option String} {x : Patch} (h : Patch.XmlOk x) :
    Reads ns (Patch.writeXml x) "patch" Patch.readXml x := by
  have hn : ["diff", "resolves"].Nodup := by decide
  have ha : ["type"].Nodup := by decide
  refine reads_struct (p := (PatchClassification.display x.patchType)) (Patch.xml_body_wf) ?_
      (Goes.append (Goes.opt (fun o s => { s with diff := o }) (.head _) hn (fun _ => rfl) rfl
          (fun y240 hy240 => reads_if (h.diff y240 hy240).2 (Diff.xml_reads (h.diff y240 hy240).1)))
        (Goes.opt (fun o s => { s with resolves := o }) (.tail _ (.head _)) hn (fun _ => rfl) rfl
          (fun y241 hy241 => reads_list (fun y242 hy242 => Issue.xml_reads ((h.resolves y241 hy241) y242 hy242)) (fun _ _ => Issue.xml_wf)))
        (writeOpt_wf fun _ _ => (if_wf Diff.xml_wf))) ?_
  · refine bindOk (reqAttr_mk ha (.head _)) ?_
    exact congrArg Except.ok rfl
  · show Except.ok _ = Except.ok _
    apply congrArg Except.ok
    rw [show PatchClassification.new (PatchClassification.display x.patchType) = x.patchType from h.patchType]

theorem VulnerabilityAnalysis.json_ne_null {v : SpecVersion} {x : VulnerabilityAnalysis} :
    VulnerabilityAnalysis.toJson v x ≠ .null := Json.mk_ne_null _

theorem VulnerabilityAnalysis.json_rt (v : SpecVersion) {x : VulnerabilityAnalysis} (h : VulnerabilityAnalysis.JsonOk x) :
    VulnerabilityAnalysis.ofJson v (VulnerabilityAnalysis.toJson v x) = .ok (x.at v) := by
  cases v with
  | v1_3 =>
    have hn : ["state", "justification", "responses", "detail"].Nodup := by decide
    refine bindOk (Json.fields_mk _) ?_
    refine bindOk (Json.opt_id hn (.head _) (fun y248 hy248 => Json.str_ne_null)
        (fun y248 hy248 => Json.enum_rt (h.state y248 hy248))) ?_
    refine bindOk (Json.opt_id hn (.tail _ (.head _)) (fun y249 hy249 => Json.str_ne_null)
        (fun y249 hy249 => Json.enum_rt (h.justification y249 hy249))) ?_
    refine bindOk (Json.opt_id hn (.tail _ (.tail _ (.head _))) (fun y250 hy250 => Json.ofList_ne_null)
        (fun y250 hy250 => Json.array_id (fun y251 hy251 => Json.enum_rt ((h.responses y250 hy250) y251 hy251)))) ?_
    refine bindOk (Json.opt_id hn (.tail _ (.tail _ (.tail _ (.head _)))) (fun y252 hy252 => Json.str_ne_null)
        (fun y252 hy252 => rfl)) ?_
    refine bindOk rfl ?_
    refine bindOk rfl ?_
    rfl
  | v1_4 =>
    have hn : ["state", "justification", "responses", "detail"].Nodup := by decide
    refine bindOk (Json.fields_mk _) ?_
    refine bindOk (Json.opt_id hn (.head _) (fun y253 hy253 => Json.str_ne_null)
        (fun y253 hy253 => Json.enum_rt (h.state y253 hy253))) ?_
    refine bindOk (Json.opt_id hn (.tail _ (.head _)) (fun y254 hy254 => Json.str_ne_null)
        (fun y254 hy254 => Json.enum_rt (h.justification y254 hy254))) ?_
    refine bindOk (Json.opt_id hn (.tail _ (.tail _ (.head _))) (fun y255 hy255 => Json.ofList_ne_null)
        (fun y255 hy255 => Json.array_id (fun y256 hy256 => Json.enum_rt ((h.responses y255 hy255) y256 hy256)))) ?_
    refine bindOk (Json.opt_id hn (.tail _ (.tail _ (.tail _ (.head _)))) (fun y257 hy257 => Json.str_ne_null)
        (fun y257 hy257 => rfl)) ?_
    refine bindOk rfl ?_
    refine bindOk rfl ?_
    rfl
  | v1_5 =>
    have hn : ["state", "justification", "responses", "detail", "firstIssued", "lastUpdated"].Nodup := by decide
    refine bindOk (Json.fields_mk _) ?_
    refine bindOk (Json.opt_id hn (.head _) (fun y258 hy258 => Json.str_ne_null)
        (fun y258 hy258 => Json.enum_rt (h.state y258 hy258))) ?_
    refine bindOk (Json.opt_id hn (.tail _ (.head _)) (fun y259 hy259 => Json.str_ne_null)
        (fun y259 hy259 => Json.enum_rt (h.justification y259 hy259))) ?_
    refine bindOk (Json.opt_id hn (.tail _ (.tail _ (.head _))) (fun y260 hy260 => Json.ofList_ne_null)
        (fun y260 hy260 => Json.array_id (fun y261 hy261 => Json.enum_rt ((h.responses y260 hy260) y261 hy261)))) ?_
    refine bindOk (Json.opt_id hn (.tail _ (.tail _ (.tail _ (.head _)))) (fun y262 hy262 => Json.str_ne_null)
        (fun y262 hy262 => rfl)) ?_
    refine bindOk (Json.opt_id hn (.tail _ (.tail _ (.tail _ (.tail _ (.head _))))) (fun y263 hy263 => Json.str_ne_null)
        (fun y263 hy263 => rfl)) ?_
    refine bindOk (Json.opt_id hn (.tail _ (.tail _ (.tail _ (.tail _ (.tail _ (.head _)))))) (fun y264 hy264 => Json.str_ne_null)
        (fun y264 hy264 => rfl)) ?_
    rfl

theorem VulnerabilityAnalysis.xml_body_wf {loose : Bool} {v : SpecVersion} {x : VulnerabilityAnalysis} : WellFormed loose (
    (writeOpt (fun e => writeSimple "state" (ImpactAnalysisState.display e)) x.state) ++
    ((writeOpt (fun e => writeSimple "justification" (ImpactAnalysisJustification.display e)) x.justification) ++
    ((writeOpt (writeList "responses" (fun e => writeSimple "response" (ImpactAnalysisResponse.display e))) x.responses) ++
    ((writeOpt (writeSimple "detail") x.detail) ++
    ((since15 v (writeOpt (writeSimple "firstIssued") x.firstIssued) []) ++
    ((since15 v (writeOpt (writeSimple "lastUpdated") x.lastUpdated) []))))))) :=
  (.append (writeOpt_wf fun _ _ => writeSimple_wf)
    (.append (writeOpt_wf fun _ _ => writeSimple_wf)
    (.append (writeOpt_wf fun _ _ => (writeList_wf fun _ _ => writeSimple_wf))
    (.append (writeOpt_wf fun _ _ => writeSimple_wf)
    (.append (since15_wf fun _ => (writeOpt_wf fun _ _ => writeSimple_wf))
    (since15_wf fun _ => (writeOpt_wf fun _ _ => writeSimple_wf)))))))

theorem VulnerabilityAnalysis.xml_one {loose : Bool} {v : SpecVersion} {x : VulnerabilityAnalysis} :
    OneElement loose "analysis" (VulnerabilityAnalysis.writeXml v x) :=
  writeElem_one goodNil (VulnerabilityAnalysis.xml_body_wf)

theorem VulnerabilityAnalysis.xml_wf {loose : Bool} {v : SpecVersion} {x : VulnerabilityAnalysis} :
    WellFormed loose (VulnerabilityAnalysis.writeXml v x) :=
  (VulnerabilityAnalysis.xml_one).wf

theorem VulnerabilityAnalysis.arms_local (v : SpecVersion) :
    ∀ p ∈ VulnerabilityAnalysis.arms v, LocalArm p.1 p.2 :=
  (armsAppend (armsCons (arm_local (map_local readSimple_local ImpactAnalysisState.new) _)
    (armsCons (arm_local (map_local readSimple_local ImpactAnalysisJustification.new) _)
    (armsCons (arm_local (readList_local (map_local readSimple_local ImpactAnalysisResponse.new)) _)
    (armsCons (arm_local readSimple_local _)
    armsNil))))
    (armsSince15 (armsCons (arm_local readSimple_local _)
    (armsCons (arm_local readSimple_local _)
    armsNil))))

theorem VulnerabilityAnalysis.xml_local (v : SpecVersion) {tag : String} :
    LocalAt tag (VulnerabilityAnalysis.readXml v) :=
  readStruct_local (by simp) (VulnerabilityAnalysis.arms_local v)

theorem VulnerabilityAnalysis.xml_reads (v : SpecVersion) {ns : Option String} {x : VulnerabilityAnalysis} (h : VulnerabilityAnalysis.XmlOk v x) :
    Reads ns (VulnerabilityAnalysis.writeXml v x) "analysis" (VulnerabilityAnalysis.readXml v) (x.at v) := by
  cases v with
  | v1_3 =>
    have hn : ["state", "justification", "responses", "detail"].Nodup := by decide
    refine reads_struct (VulnerabilityAnalysis.xml_body_wf) rfl
        (Goes.append (Goes.opt (fun o s => { s with state := o }) (.head _) hn (fun _ => rfl) rfl
            (fun y272 hy272 => reads_enum (h.state y272 hy272)))
          (Goes.append (Goes.opt (fun o s => { s with justification := o }) (.tail _ (.head _)) hn (fun _ => rfl) rfl
            (fun y273 hy273 => reads_enum (h.justification y273 hy273)))
          (Goes.append (Goes.opt (fun o s => { s with responses := o }) (.tail _ (.tail _ (.head _))) hn (fun _ => rfl) rfl
            (fun y274 hy274 => reads_list (fun y275 hy275 => reads_enum ((h.responses y274 hy274) y275 hy275)) (fun _ _ => writeSimple_wf)))
          (Goes.append (Goes.opt (fun o s => { s with detail := o }) (.tail _ (.tail _ (.tail _ (.head _)))) hn (fun _ => rfl) rfl
            (fun y276 hy276 => reads_simple (h.detail y276 hy276)))
          (Goes.append (Goes.nil)
          (Goes.nil)
          .nil)
          (writeOpt_wf fun _ _ => writeSimple_wf))
          (writeOpt_wf fun _ _ => (writeList_wf fun _ _ => writeSimple_wf)))
          (writeOpt_wf fun _ _ => writeSimple_wf))
          (writeOpt_wf fun _ _ => writeSimple_wf)) ?_
    rfl
  | v1_4 =>
    have hn : ["state", "justification", "responses", "detail"].Nodup := by decide
    refine reads_struct (VulnerabilityAnalysis.xml_body_wf) rfl
        (Goes.append (Goes.opt (fun o s => { s with state := o }) (.head _) hn (fun _ => rfl) rfl
            (fun y277 hy277 => reads_enum (h.state y277 hy277)))
          (Goes.append (Goes.opt (fun o s => { s with justification := o }) (.tail _ (.head _)) hn (fun _ => rfl) rfl
            (fun y278 hy278 => reads_enum (h.justification y278 hy278)))
          (Goes.append (Goes.opt (fun o s => { s with responses := o }) (.tail _ (.tail _ (.head _))) hn (fun _ => rfl) rfl
            (fun y279 hy279 => reads_list (fun y280 hy280 => reads_enum ((h.responses y279 hy279) y280 hy280)) (fun _ _ => writeSimple_wf)))
          (Goes.append (Goes.opt (fun o s => { s with detail := o }) (.tail _ (.tail _ (.tail _ (.head _)))) hn (fun _ => rfl) rfl
            (fun y281 hy281 => reads_simple (h.detail y281 hy281)))
          (Goes.append (Goes.nil)
          (Goes.nil)
          .nil)
          (writeOpt_wf fun _ _ => writeSimple_wf))
          (writeOpt_wf fun _ _ => (writeList_wf fun _ _ => writeSimple_wf)))
          (writeOpt_wf fun _ _ => writeSimple_wf))
          (writeOpt_wf fun _ _ => writeSimple_wf)) ?_
    rfl
  | v1_5 =>
    have hn : ["state", "justification", "responses", "detail", "firstIssued", "lastUpdated"].Nodup := by decide
    refine reads_struct (VulnerabilityAnalysis.xml_body_wf) rfl
        (Goes.append (Goes.opt (fun o s => { s with state := o }) (.head _) hn (fun _ => rfl) rfl
            (fun y282 hy282 => reads_enum (h.state y282 hy282)))
          (Goes.append (Goes.opt (fun o s => { s with justification := o }) (.tail _ (.head _)) hn (fun _ => rfl) rfl
            (fun y283 hy283 => reads_enum (h.justification y283 hy283)))
          (Goes.append (Goes.opt (fun o s => { s with responses := o }) (.tail _ (.tail _ (.head _))) hn (fun _ => rfl) rfl
            (fun y284 hy284 => reads_list (fun y285 hy285 => reads_enum ((h.responses y284 hy284) y285 hy285)) (fun _ _ => writeSimple_wf)))
          (Goes.append (Goes.opt (fun o s => { s with detail := o }) (.tail _ (.tail _ (.tail _ (.head _)))) hn (fun _ => rfl) rfl
            (fun y286 hy286 => reads_simple (h.detail y286 hy286)))
          (Goes.append (Goes.opt (fun o s => { s with firstIssued := o }) (.tail _ (.tail _ (.tail _ (.tail _ (.head _))))) hn (fun _ => rfl) rfl
            (fun y287 hy287 => reads_simple ((h.firstIssued rfl) y287 hy287)))
          (Goes.opt (fun o s => { s with lastUpdated := o }) (.tail _ (.tail _ (.tail _ (.tail _ (.tail _ (.head _)))))) hn (fun _ => rfl) rfl
            (fun y288 hy288 => reads_simple ((h.lastUpdated rfl) y288 hy288)))
          (writeOpt_wf fun _ _ => writeSimple_wf))
          (writeOpt_wf fun _ _ => writeSimple_wf))
          (writeOpt_wf fun _ _ => (writeList_wf fun _ _ => writeSimple_wf)))
          (writeOpt_wf fun _ _ => writeSimple_wf))
          (writeOpt_wf fun _ _ => writeSimple_wf)) ?_
    rfl

theorem VersionRange.xml_wf {loose : Bool} {x : VersionRange} : WellFormed loose (VersionRange.writeXml x) := by
  cases x with
  | version y => exact writeSimple_wf
  | range y => exact writeSimple_wf
  | undefinedVersionRange y => exact .nil

theorem TargetVersion.json_ne_null {x : TargetVersion} :
    TargetVersion.toJson x ≠ .null := Json.mk_ne_null _

theorem TargetVersion.json_rt {x : TargetVersion} (h : TargetVersion.JsonOk x) :
    TargetVersion.ofJson (TargetVersion.toJson x) = .ok x := by
  obtain ⟨versionRange, status⟩ := x
  cases versionRange with
  | version z =>
    have hn : ["version", "status"].Nodup := by decide
    refine bindOk (Json.fields_mk _) ?_
    refine bindOk (Json.flat_head rfl (Json.map_ok (rfl))) ?_
    refine bindOk (Json.req_mk hn (.tail _ (.head _)) (Json.enum_rt h.status)) ?_
    rfl
  | range z =>
    have hn : ["range", "status"].Nodup := by decide
    refine bindOk (Json.fields_mk _) ?_
    refine bindOk (Json.flat_head rfl (Json.map_ok (rfl))) ?_
    refine bindOk (Json.req_mk hn (.tail _ (.head _)) (Json.enum_rt h.status)) ?_
    rfl
  | undefinedVersionRange z =>
    have hn : ["undefinedVersionRange", "status"].Nodup := by decide
    refine bindOk (Json.fields_mk _) ?_
    refine bindOk (Json.flat_head rfl (Json.map_ok (rfl))) ?_
    refine bindOk (Json.req_mk hn (.tail _ (.head _)) (Json.enum_rt h.status)) ?_
    rfl

theorem TargetVersion.xml_body_wf {loose : Bool} {x : TargetVersion} : WellFormed loose (
    (VersionRange.writeXml x.versionRange) ++
    (((fun e => writeSimple "status" (Status.display e)) x.status))) :=
  (.append (VersionRange.xml_wf)
    (writeSimple_wf))

theorem TargetVersion.xml_one {loose : Bool} {x : TargetVersion} :
    OneElement loose "version" (TargetVersion.writeXml x) :=
  writeElem_one goodNil (TargetVersion.xml_body_wf)

theorem TargetVersion.xml_wf {loose : Bool} {x : TargetVersion} :
    WellFormed loose (TargetVersion.writeXml x) :=
  (TargetVersion.xml_one).wf

theorem TargetVersion.arms_local :
    ∀ p ∈ TargetVersion.arms, LocalArm p.1 p.2 :=
  (armsCons (arm_local readSimple_local _)
    (armsCons (arm_local readSimple_local _)
    (armsCons (arm_local (map_local readSimple_local Status.new) _)
    armsNil)))

theorem TargetVersion.xml_local {tag : String} :
    LocalAt tag TargetVersion.readXml :=
  readStruct_local (by simp) (TargetVersion.arms_local)

theorem TargetVersion.xml_reads {ns : Option String} {x : TargetVersion} (h : TargetVersion.XmlOk x) :
    Reads ns (TargetVersion.writeXml x) "version" TargetVersion.readXml x := by
  obtain ⟨versionRange, status⟩ := x
  cases versionRange with
  | version z =>
    have hn : ["version", "range", "status"].Nodup := by decide
    refine reads_struct (TargetVersion.xml_body_wf) rfl
        (Goes.append (Goes.one (reads_simple h.versionRange) (.head _) hn)
          (Goes.one (reads_enum h.status) (.tail _ (.tail _ (.head _))) hn)
          (VersionRange.xml_wf)) ?_
    rfl
  | range z =>
    have hn : ["version", "range", "status"].Nodup := by decide
    refine reads_struct (TargetVersion.xml_body_wf) rfl
        (Goes.append (Goes.one (reads_simple h.versionRange) (.tail _ (.head _)) hn)
          (Goes.one (reads_enum h.status) (.tail _ (.tail _ (.head _))) hn)
          (VersionRange.xml_wf)) ?_
    rfl
  | undefinedVersionRange z =>
    exact (h.versionRange : False).elim

theorem VulnerabilityTarget.json_ne_null {x : VulnerabilityTarget} :
    VulnerabilityTarget.toJson x ≠ .null := Json.mk_ne_null _

theorem VulnerabilityTarget.json_rt {x : VulnerabilityTarget} (h : VulnerabilityTarget.JsonOk x) :
    VulnerabilityTarget.ofJson (VulnerabilityTarget.toJson x) = .ok x := by
  have hn : ["ref", "versions"].Nodup := by decide
  refine bindOk (Json.fields_mk _) ?_
  refine bindOk (Json.req_mk hn (.head _) (rfl)) ?_
  refine bindOk (Json.opt_id hn (.tail _ (.head _)) (fun y291 hy291 => Json.ofList_ne_null)
      (fun y291 hy291 => Json.array_id (fun y292 hy292 => TargetVersion.json_rt ((h.versions y291 hy291) y292 hy292)))) ?_
  rfl

theorem VulnerabilityTarget.xml_body_wf {loose : Bool} {x : VulnerabilityTarget} : WellFormed loose (
    ((writeSimple "ref") x.bomRef) ++
    ((writeOpt (writeList "versions" TargetVersion.writeXml) x.versions))) :=
  (.append (writeSimple_wf)
    (writeOpt_wf fun _ _ => (writeList_wf fun _ _ => TargetVersion.xml_wf)))

theorem VulnerabilityTarget.xml_one {loose : Bool} {x : VulnerabilityTarget} :
    OneElement loose "target" (VulnerabilityTarget.writeXml x) :=
  writeElem_one goodNil (VulnerabilityTarget.xml_body_wf)

theorem VulnerabilityTarget.xml_wf {loose : Bool} {x : VulnerabilityTarget} :
    WellFormed loose (VulnerabilityTarget.writeXml x) :=
  (VulnerabilityTarget.xml_one).wf

theorem VulnerabilityTarget.arms_local :
    ∀ p ∈ VulnerabilityTarget.arms, LocalArm p.1 p.2 :=
  (armsCons (arm_local readSimple_local _)
    (armsCons (arm_local (readListLax_local TargetVersion.xml_local) _)
    armsNil))

theorem VulnerabilityTarget.xml_local {tag : String} :
    LocalAt tag VulnerabilityTarget.readXml :=
  readStruct_local (by simp) (VulnerabilityTarget.arms_local)

theorem VulnerabilityTarget.xml_reads {ns : Option String} {x : VulnerabilityTarget} (h : VulnerabilityTarget.XmlOk x) :
    Reads ns (VulnerabilityTarget.writeXml x) "target" VulnerabilityTarget.readXml x := by
  have hn : ["ref", "versions"].Nodup := by decide
  refine reads_struct (VulnerabilityTarget.xml_body_wf) rfl
      (Goes.append (Goes.one (reads_simple h.bomRef) (.head _) hn)
        (Goes.opt (fun o s => { s with versions := o }) (.tail _ (.head _)) hn (fun _ => rfl) rfl
          (fun y295 hy295 => reads_listLax (fun y296 hy296 => TargetVersion.xml_reads ((h.versions y295 hy295) y296 hy296)) (fun _ _ => TargetVersion.xml_wf)))
        (writeSimple_wf)) ?_
  rfl

end Cdx
