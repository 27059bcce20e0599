import Verif.Lemmas.Xml
import Verif.Lemmas.Json
import Verif.Spec.Format.Evidence
import Verif.Lemmas.Format.Service

set_option linter.unusedSectionVars false
set_option linter.unusedSimpArgs false
set_option linter.unusedVariables false

/-!
# Lemmas on the file formats: ratings and evidence
-/

namespace Cdx

variable [F32Format]

theorem VulnerabilityRating.json_ne_null {x : VulnerabilityRating} :
    VulnerabilityRating.toJson x ≠ .null := Json.mk_ne_null _

theorem VulnerabilityRating.json_rt {x : VulnerabilityRating} (h : VulnerabilityRating.JsonOk x) :
    VulnerabilityRating.ofJson (VulnerabilityRating.toJson x) = .ok x := by
  have hn : ["source", "score", "severity", "method", "vector", "justification"].Nodup := by decide
  refine bindOk (Json.fields_mk _) ?_
  refine bindOk (Json.opt_id hn (.head _) (fun y595 hy595 => VulnerabilitySource.json_ne_null)
      (fun y595 hy595 => VulnerabilitySource.json_rt)) ?_
  refine bindOk (Json.opt_id hn (.tail _ (.head _)) (fun y596 hy596 => Json.f32_ne_null (h.score y596 hy596))
      (fun y596 hy596 => Json.f32_rt (h.score y596 hy596))) ?_
  refine bindOk (Json.opt_id hn (.tail _ (.tail _ (.head _))) (fun y597 hy597 => Json.str_ne_null)
      (fun y597 hy597 => Json.enum_rt (h.severity y597 hy597))) ?_
  refine bindOk (Json.opt_id hn (.tail _ (.tail _ (.tail _ (.head _)))) (fun y598 hy598 => Json.str_ne_null)
      (fun y598 hy598 => Json.enum_rt (h.scoreMethod y598 hy598))) ?_
  refine bindOk (Json.opt_id hn (.tail _ (.tail _ (.tail _ (.tail _ (.head _))))) (fun y599 hy599 => Json.str_ne_null)
      (fun y599 hy599 => rfl)) ?_
  refine bindOk (Json.opt_id hn (.tail _ (.tail _ (.tail _ (.tail _ (.tail _ (.head _)))))) (fun y600 hy600 => Json.str_ne_null)
      (fun y600 hy600 => rfl)) ?_
  rfl

theorem VulnerabilityRating.xml_body_wf {loose : Bool} {x : VulnerabilityRating} : WellFormed loose (
    (writeOpt VulnerabilitySource.writeXml x.vulnerabilitySource) ++
    ((writeOpt (fun n => writeSimple "score" (F32Format.display n)) x.score) ++
    ((writeOpt (fun e => writeSimple "severity" (Severity.display e)) x.severity) ++
    ((writeOpt (fun e => writeSimple "method" (ScoreMethod.display e)) x.scoreMethod) ++
    ((writeOpt (writeSimple "vector") x.vector) ++
    ((writeOpt (writeSimple "justification") x.justification))))))) :=
  (.append (writeOpt_wf fun _ _ => VulnerabilitySource.xml_wf)
    (.append (writeOpt_wf fun _ _ => writeSimple_wf)
    (.append (writeOpt_wf fun _ _ => writeSimple_wf)
    (.append (writeOpt_wf fun _ _ => writeSimple_wf)
    (.append (writeOpt_wf fun _ _ => writeSimple_wf)
    (writeOpt_wf fun _ _ => writeSimple_wf))))))

theorem VulnerabilityRating.xml_one {loose : Bool} {x : VulnerabilityRating} :
    OneElement loose "rating" (VulnerabilityRating.writeXml x) :=
  writeElem_one goodNil (VulnerabilityRating.xml_body_wf)

theorem VulnerabilityRating.xml_wf {loose : Bool} {x : VulnerabilityRating} :
    WellFormed loose (VulnerabilityRating.writeXml x) :=
  (VulnerabilityRating.xml_one).wf

theorem VulnerabilityRating.arms_local :
    ∀ p ∈ VulnerabilityRating.arms, LocalArm p.1 p.2 :=
  (armsCons (arm_local VulnerabilitySource.xml_local _)
    (armsCons (arm_local readScore_local _)
    (armsCons (arm_local (map_local readSimple_local Severity.new) _)
    (armsCons (arm_local (map_local readSimple_local ScoreMethod.new) _)
    (armsCons (arm_local readSimple_local _)
    (armsCons (arm_local readSimple_local _)
    armsNil))))))

theorem VulnerabilityRating.xml_local {tag : String} :
    LocalAt tag VulnerabilityRating.readXml :=
  readStruct_local (by simp) (VulnerabilityRating.arms_local)

theorem VulnerabilityRating.xml_reads {ns : Option String} {x : VulnerabilityRating} (h : VulnerabilityRating.XmlOk x) :
    Reads ns (VulnerabilityRating.writeXml x) "rating" VulnerabilityRating.readXml x := by
  have hn : ["source", "score", "severity", "method", "vector", "justification"].Nodup := by decide
  refine reads_struct (VulnerabilityRating.xml_body_wf) rfl
      (Goes.append (Goes.opt (fun o s => { s with vulnerabilitySource := o }) (.head _) hn (fun _ => rfl) rfl
          (fun y607 hy607 => VulnerabilitySource.xml_reads (h.vulnerabilitySource y607 hy607)))
        (Goes.append (Goes.opt (fun o s => { s with score := o }) (.tail _ (.head _)) hn (fun _ => rfl) rfl
          (fun y608 hy608 => reads_score (h.score y608 hy608)))
        (Goes.append (Goes.opt (fun o s => { s with severity := o }) (.tail _ (.tail _ (.head _))) hn (fun _ => rfl) rfl
          (fun y609 hy609 => reads_enum (h.severity y609 hy609)))
        (Goes.append (Goes.opt (fun o s => { s with scoreMethod := o }) (.tail _ (.tail _ (.tail _ (.head _)))) hn (fun _ => rfl) rfl
          (fun y610 hy610 => reads_enum (h.scoreMethod y610 hy610)))
        (Goes.append (Goes.opt (fun o s => { s with vector := o }) (.tail _ (.tail _ (.tail _ (.tail _ (.head _))))) hn (fun _ => rfl) rfl
          (fun y611 hy611 => reads_simple (h.vector y611 hy611)))
        (Goes.opt (fun o s => { s with justification := o }) (.tail _ (.tail _ (.tail _ (.tail _ (.tail _ (.head _)))))) hn (fun _ => rfl) rfl
          (fun y612 hy612 => reads_simple (h.justification y612 hy612)))
        (writeOpt_wf fun _ _ => writeSimple_wf))
        (writeOpt_wf fun _ _ => writeSimple_wf))
        (writeOpt_wf fun _ _ => writeSimple_wf))
        (writeOpt_wf fun _ _ => writeSimple_wf))
        (writeOpt_wf fun _ _ => VulnerabilitySource.xml_wf)) ?_
  rfl

theorem Copyright.json_rt {s : String} : Copyright.ofJson (Copyright.toJson s) = .ok s := rfl

theorem writeCdata_wf {loose : Bool} {tag s : String} : WellFormed loose (writeCdata tag s) :=
  writeElem_wf goodNil (.cdata _)

theorem endsCdata_iff : ∀ {l : List Char}, endsCdata l = true ↔ [']', ']', '>'] <:+: l
  | [] => by simp [endsCdata]
  | c :: l => by
    rw [endsCdata, Bool.or_eq_true, endsCdata_iff, List.infix_cons_iff, List.isPrefixOf_iff_prefix]

theorem SafeCdata.ends {s : String} (h : SafeCdata s) : endsCdata s.toList = false := by
  cases he : endsCdata s.toList with
  | false => rfl
  | true => exact absurd (endsCdata_iff.mp he) h

theorem reads_cdata {ns : Option String} {tag s : String} (h : SafeCdata s) :
    Reads ns (writeCdata tag s) tag readSimple s :=
  ⟨[], [.cdata s], by simp [writeCdata, writeElem, deliver, h.ends],
    fun rest => by simp [readSimple, readClose, bind, Except.bind]⟩

mutual
theorem toolRefs_events {el : XName} : ∀ (x : XNode) (acc : List String),
    (∃ acc', ∀ rest, toolRefsLoop el acc (x.events ++ rest) = toolRefsLoop el acc' rest) ∨
    ∃ e, ∀ rest, toolRefsLoop el acc (x.events ++ rest) = .error e
  | .chars s, acc => .inr ⟨_, fun _ => rfl⟩
  | .cdata s, acc => .inr ⟨_, fun _ => rfl⟩
  | .other, acc => .inr ⟨_, fun _ => rfl⟩
  | .elem n attrs ns c, acc => by
    simp only [XNode.events, List.cons_append, List.append_assoc, List.nil_append, toolRefsLoop]
    by_cases hn : n.localName = "tool"
    · simp only [if_pos hn]
      cases reqAttr n attrs "ref" with
      | error e => exact .inr ⟨e, fun _ => rfl⟩
      | ok r =>
        dsimp only
        rcases toolRefs_eventsAll c (acc ++ [r]) with ⟨acc', h⟩ | ⟨e, h⟩
        · refine .inl ⟨acc', fun rest => ?_⟩
          rw [h, toolRefsLoop, if_pos hn]
        · exact .inr ⟨e, fun rest => h _⟩
    · simp only [if_neg hn]
      exact .inr ⟨_, fun _ => rfl⟩

theorem toolRefs_eventsAll {el : XName} : ∀ (l : List XNode) (acc : List String),
    (∃ acc', ∀ rest, toolRefsLoop el acc (XNode.eventsAll l ++ rest) = toolRefsLoop el acc' rest) ∨
    ∃ e, ∀ rest, toolRefsLoop el acc (XNode.eventsAll l ++ rest) = .error e
  | [], acc => .inl ⟨acc, fun _ => rfl⟩
  | x :: l, acc => by
    simp only [XNode.eventsAll, List.append_assoc]
    rcases toolRefs_events x acc with ⟨acc1, h1⟩ | ⟨e, h1⟩
    · rcases toolRefs_eventsAll l acc1 with ⟨acc2, h2⟩ | ⟨e, h2⟩
      · exact .inl ⟨acc2, fun rest => by rw [h1, h2]⟩
      · exact .inr ⟨e, fun rest => by rw [h1, h2]⟩
    · exact .inr ⟨e, fun rest => h1 _⟩
end

theorem readToolRefs_local : LocalAt "tools" readToolRefs := by
  intro el attrs content h1 _ _
  rcases toolRefs_eventsAll (el := el) content [] with ⟨acc, h⟩ | ⟨e, h⟩
  · refine ⟨.ok acc, fun rest => ?_⟩
    rw [readToolRefs, h, toolRefsLoop, if_neg (by rw [h1]; decide), if_pos rfl]
    rfl
  · exact ⟨.error e, fun rest => h _⟩

theorem toolRefs_reads {ns : Option String} {rest : List XEvent} : ∀ (l acc : List String),
    toolRefsLoop ⟨"tools", ns, none⟩ acc
      (l.flatMap (fun r => [.start ⟨"tool", ns, none⟩ [("ref", r)] ns, .stop ⟨"tool", ns, none⟩]) ++
        .stop ⟨"tools", ns, none⟩ :: rest) = .ok (acc ++ l, rest)
  | [], acc => by
    rw [List.flatMap_nil, List.nil_append, toolRefsLoop, if_neg (show ¬ "tools" = "tool" by decide), if_pos rfl,
      List.append_nil]
  | r :: l, acc => by
    have ih := toolRefs_reads (ns := ns) (rest := rest) l (acc ++ [r])
    rw [List.append_assoc] at ih
    simp only [List.flatMap_cons, List.cons_append, List.nil_append]
    rw [toolRefsLoop, if_pos rfl]
    have hr : reqAttr ⟨"tool", ns, none⟩ [("ref", r)] "ref" = .ok r := rfl
    rw [hr]
    dsimp only
    rw [toolRefsLoop, if_pos rfl]
    exact ih

theorem reads_toolRefs {ns : Option String} {l : List String} :
    Reads ns (writeList "tools" (writeRef "tool") l) "tools" readToolRefs l := by
  refine ⟨[], l.flatMap (fun r => [.start ⟨"tool", ns, none⟩ [("ref", r)] ns,
    .stop ⟨"tool", ns, none⟩]), ?_, fun rest => toolRefs_reads l []⟩
  have hd : deliver ns [] (l.flatMap (writeRef "tool")) =
      l.flatMap (fun r => [.start ⟨"tool", ns, none⟩ [("ref", r)] ns, .stop ⟨"tool", ns, none⟩]) := by
    induction l with
    | nil => rfl
    | cons r l ih =>
      rw [List.flatMap_cons, deliver_append (loose := true) writeRef_wf, ih, List.flatMap_cons]
      rfl
  rw [← hd]
  exact deliver_elem (loose := true) (flatMap_wf fun _ _ => writeRef_wf) ns

theorem Occurrence.json_ne_null {x : Occurrence} :
    Occurrence.toJson x ≠ .null := Json.mk_ne_null _

theorem Occurrence.json_rt {x : Occurrence} :
    Occurrence.ofJson (Occurrence.toJson x) = .ok x := by
  have hn : ["bomRef", "location"].Nodup := by decide
  refine bindOk (Json.fields_mk _) ?_
  refine bindOk (Json.opt_id hn (.head _) (fun y613 hy613 => Json.str_ne_null)
      (fun y613 hy613 => rfl)) ?_
  refine bindOk (Json.req_mk hn (.tail _ (.head _)) (rfl)) ?_
  rfl

theorem Occurrence.xml_body_wf {loose : Bool} {x : Occurrence} : WellFormed loose (
    ((writeSimple "location") x.location)) :=
  (writeSimple_wf)

theorem Occurrence.xml_one {loose : Bool} {x : Occurrence} :
    OneElement loose "occurrence" (Occurrence.writeXml x) :=
  writeElem_one (goodAttrs (by decide : ["bom-ref"].Nodup)) (Occurrence.xml_body_wf)

theorem Occurrence.xml_wf {loose : Bool} {x : Occurrence} :
    WellFormed loose (Occurrence.writeXml x) :=
  (Occurrence.xml_one).wf

theorem Occurrence.arms_local :
    ∀ p ∈ Occurrence.arms, LocalArm p.1 p.2 :=
  (armsCons (arm_local readSimple_local _)
    armsNil)

theorem Occurrence.xml_local {tag : String} :
    LocalAt tag Occurrence.readXml :=
  readStruct_local (by simp) (Occurrence.arms_local)

theorem Occurrence.xml_reads {ns : Option String} {x : Occurrence} (h : Occurrence.XmlOk x) :
    Reads ns (Occurrence.writeXml x) "occurrence" Occurrence.readXml x := by
  have hn : ["location"].Nodup := by decide
  have ha : ["bom-ref"].Nodup := by decide
  refine reads_struct (p := (x.bomRef)) (Occurrence.xml_body_wf) ?_
      (Goes.one (reads_simple h.location) (.head _) hn) ?_
  · exact congrArg Except.ok (optAttr_mk ha (.head _))
  · rfl

theorem Frame.json_ne_null {x : Frame} :
    Frame.toJson x ≠ .null := Json.mk_ne_null _

theorem Frame.json_rt {x : Frame} (h : Frame.JsonOk x) :
    Frame.ofJson (Frame.toJson x) = .ok x := by
  have hn : ["package", "module", "function", "parameters", "line", "column", "fullFilename"].Nodup := by decide
  refine bindOk (Json.fields_mk _) ?_
  refine bindOk (Json.opt_id hn (.head _) (fun y616 hy616 => Json.str_ne_null)
      (fun y616 hy616 => rfl)) ?_
  refine bindOk (Json.req_mk hn (.tail _ (.head _)) (rfl)) ?_
  refine bindOk (Json.opt_id hn (.tail _ (.tail _ (.head _))) (fun y617 hy617 => Json.str_ne_null)
      (fun y617 hy617 => rfl)) ?_
  refine bindOk (Json.opt_id hn (.tail _ (.tail _ (.tail _ (.head _)))) (fun y618 hy618 => Json.ofList_ne_null)
      (fun y618 hy618 => Json.array_id (fun y619 hy619 => rfl))) ?_
  refine bindOk (Json.opt_id hn (.tail _ (.tail _ (.tail _ (.tail _ (.head _))))) (fun y620 hy620 => Json.nat_ne_null)
      (fun y620 hy620 => Json.u32_rt (h.line y620 hy620))) ?_
  refine bindOk (Json.opt_id hn (.tail _ (.tail _ (.tail _ (.tail _ (.tail _ (.head _)))))) (fun y621 hy621 => Json.nat_ne_null)
      (fun y621 hy621 => Json.u32_rt (h.column y621 hy621))) ?_
  refine bindOk (Json.opt_id hn (.tail _ (.tail _ (.tail _ (.tail _ (.tail _ (.tail _ (.head _))))))) (fun y622 hy622 => Json.str_ne_null)
      (fun y622 hy622 => rfl)) ?_
  rfl

theorem Frame.xml_body_wf {loose : Bool} {x : Frame} : WellFormed loose (
    (writeOpt (writeSimple "package") x.package) ++
    (((writeSimple "module") x.module) ++
    ((writeOpt (writeSimple "function") x.function) ++
    ((writeOpt (writeList "parameters" (writeSimple "parameter")) x.parameters) ++
    ((writeOpt (fun n => writeSimple "line" (showNat n)) x.line) ++
    ((writeOpt (fun n => writeSimple "column" (showNat n)) x.column) ++
    ((writeOpt (writeSimple "fullFilename") x.fullFilename)))))))) :=
  (.append (writeOpt_wf fun _ _ => writeSimple_wf)
    (.append (writeSimple_wf)
    (.append (writeOpt_wf fun _ _ => writeSimple_wf)
    (.append (writeOpt_wf fun _ _ => (writeList_wf fun _ _ => writeSimple_wf))
    (.append (writeOpt_wf fun _ _ => writeSimple_wf)
    (.append (writeOpt_wf fun _ _ => writeSimple_wf)
    (writeOpt_wf fun _ _ => writeSimple_wf)))))))

theorem Frame.xml_one {loose : Bool} {x : Frame} :
    OneElement loose "frame" (Frame.writeXml x) :=
  writeElem_one goodNil (Frame.xml_body_wf)

theorem Frame.xml_wf {loose : Bool} {x : Frame} :
    WellFormed loose (Frame.writeXml x) :=
  (Frame.xml_one).wf

theorem Frame.arms_local :
    ∀ p ∈ Frame.arms, LocalArm p.1 p.2 :=
  (armsCons (arm_local readSimple_local _)
    (armsCons (arm_local readSimple_local _)
    (armsCons (arm_local readSimple_local _)
    (armsCons (arm_local (readList_local readSimple_local) _)
    (armsCons (arm_local readU32_local _)
    (armsCons (arm_local readU32_local _)
    (armsCons (arm_local readSimple_local _)
    armsNil)))))))

theorem Frame.xml_local {tag : String} (ht : tag ∈ ignoring) :
    LocalAt tag Frame.readXml :=
  readStruct_local (fun _ => ht) (Frame.arms_local)

theorem Frame.xml_reads {ns : Option String} {x : Frame} (h : Frame.XmlOk x) :
    Reads ns (Frame.writeXml x) "frame" Frame.readXml x := by
  have hn : ["package", "module", "function", "parameters", "line", "column", "fullFilename"].Nodup := by decide
  refine reads_struct (Frame.xml_body_wf) rfl
      (Goes.append (Goes.opt (fun o s => { s with package := o }) (.head _) hn (fun _ => rfl) rfl
          (fun y630 hy630 => reads_simple (h.package y630 hy630)))
        (Goes.append (Goes.one (reads_simple h.module) (.tail _ (.head _)) hn)
        (Goes.append (Goes.opt (fun o s => { s with function := o }) (.tail _ (.tail _ (.head _))) hn (fun _ => rfl) rfl
          (fun y631 hy631 => reads_simple (h.function y631 hy631)))
        (Goes.append (Goes.opt (fun o s => { s with parameters := o }) (.tail _ (.tail _ (.tail _ (.head _)))) hn (fun _ => rfl) rfl
          (fun y632 hy632 => reads_list (fun y633 hy633 => reads_simple ((h.parameters y632 hy632) y633 hy633)) (fun _ _ => writeSimple_wf)))
        (Goes.append (Goes.opt (fun o s => { s with line := o }) (.tail _ (.tail _ (.tail _ (.tail _ (.head _))))) hn (fun _ => rfl) rfl
          (fun y634 hy634 => reads_u32 (h.line y634 hy634)))
        (Goes.append (Goes.opt (fun o s => { s with column := o }) (.tail _ (.tail _ (.tail _ (.tail _ (.tail _ (.head _)))))) hn (fun _ => rfl) rfl
          (fun y635 hy635 => reads_u32 (h.column y635 hy635)))
        (Goes.opt (fun o s => { s with fullFilename := o }) (.tail _ (.tail _ (.tail _ (.tail _ (.tail _ (.tail _ (.head _))))))) hn (fun _ => rfl) rfl
          (fun y636 hy636 => reads_simple (h.fullFilename y636 hy636)))
        (writeOpt_wf fun _ _ => writeSimple_wf))
        (writeOpt_wf fun _ _ => writeSimple_wf))
        (writeOpt_wf fun _ _ => (writeList_wf fun _ _ => writeSimple_wf)))
        (writeOpt_wf fun _ _ => writeSimple_wf))
        (writeSimple_wf))
        (writeOpt_wf fun _ _ => writeSimple_wf)) ?_
  rfl

theorem Callstack.json_ne_null {x : Callstack} :
    Callstack.toJson x ≠ .null := Json.mk_ne_null _

theorem Callstack.json_rt {x : Callstack} (h : Callstack.JsonOk x) :
    Callstack.ofJson (Callstack.toJson x) = .ok x := by
  have hn : ["frames"].Nodup := by decide
  refine bindOk (Json.fields_mk _) ?_
  refine bindOk (Json.req_mk hn (.head _) (Json.array_id (fun y638 hy638 => Frame.json_rt (h.frames y638 hy638)))) ?_
  rfl

theorem Callstack.xml_one {loose : Bool} {x : Callstack} :
    OneElement loose "callstack" (Callstack.writeXml x) :=
  writeElem_one goodNil (writeList_wf fun _ _ => Frame.xml_wf)

theorem Callstack.xml_local {tag : String} (ht : tag ∈ ignoring) : LocalAt tag Callstack.readXml :=
  readStruct_local (fun _ => ht)
    (armsCons (arm_local (Frame.xml_local (tag := "frame") (by decide)) _) armsNil)

theorem Method.json_ne_null {x : Method} :
    Method.toJson x ≠ .null := Json.mk_ne_null _

theorem Method.json_rt {x : Method} (h : Method.JsonOk x) :
    Method.ofJson (Method.toJson x) = .ok x := by
  have hn : ["technique", "confidence", "value"].Nodup := by decide
  refine bindOk (Json.fields_mk _) ?_
  refine bindOk (Json.req_mk hn (.head _) (rfl)) ?_
  refine bindOk (Json.req_mk hn (.tail _ (.head _)) (Json.f32_rt h.confidence)) ?_
  refine bindOk (Json.opt_id hn (.tail _ (.tail _ (.head _))) (fun y639 hy639 => Json.str_ne_null)
      (fun y639 hy639 => rfl)) ?_
  rfl

theorem Method.xml_body_wf {loose : Bool} {x : Method} : WellFormed loose (
    ((writeSimple "technique") x.technique) ++
    (((fun n => writeSimple "confidence" (F32Format.display n)) x.confidence) ++
    ((writeOpt (writeSimple "value") x.value)))) :=
  (.append (writeSimple_wf)
    (.append (writeSimple_wf)
    (writeOpt_wf fun _ _ => writeSimple_wf)))

theorem Method.xml_one {loose : Bool} {x : Method} :
    OneElement loose "method" (Method.writeXml x) :=
  writeElem_one goodNil (Method.xml_body_wf)

theorem Method.xml_wf {loose : Bool} {x : Method} :
    WellFormed loose (Method.writeXml x) :=
  (Method.xml_one).wf

theorem Method.arms_local :
    ∀ p ∈ Method.arms, LocalArm p.1 p.2 :=
  (armsCons (arm_local readSimple_local _)
    (armsCons (arm_local readF32_local _)
    (armsCons (arm_local readSimple_local _)
    armsNil)))

theorem Method.xml_local {tag : String} (ht : tag ∈ ignoring) :
    LocalAt tag Method.readXml :=
  readStruct_local (fun _ => ht) (Method.arms_local)

theorem Method.xml_reads {ns : Option String} {x : Method} (h : Method.XmlOk x) :
    Reads ns (Method.writeXml x) "method" Method.readXml x := by
  have hn : ["technique", "confidence", "value"].Nodup := by decide
  refine reads_struct (Method.xml_body_wf) rfl
      (Goes.append (Goes.one (reads_simple h.technique) (.head _) hn)
        (Goes.append (Goes.one (reads_f32 h.confidence) (.tail _ (.head _)) hn)
        (Goes.opt (fun o s => { s with value := o }) (.tail _ (.tail _ (.head _))) hn (fun _ => rfl) rfl
          (fun y641 hy641 => reads_simple (h.value y641 hy641)))
        (writeSimple_wf))
        (writeSimple_wf)) ?_
  rfl

theorem Identity.json_ne_null {x : Identity} :
    Identity.toJson x ≠ .null := Json.mk_ne_null _

theorem Identity.json_rt {x : Identity} (h : Identity.JsonOk x) :
    Identity.ofJson (Identity.toJson x) = .ok x := by
  have hn : ["field", "confidence", "methods", "tools"].Nodup := by decide
  refine bindOk (Json.fields_mk _) ?_
  refine bindOk (Json.req_mk hn (.head _) (Json.enum_rt h.field)) ?_
  refine bindOk (Json.opt_id hn (.tail _ (.head _)) (fun y645 hy645 => Json.f32_ne_null (h.confidence y645 hy645))
      (fun y645 hy645 => Json.f32_rt (h.confidence y645 hy645))) ?_
  refine bindOk (Json.opt_id hn (.tail _ (.tail _ (.head _))) (fun y646 hy646 => Json.ofList_ne_null)
      (fun y646 hy646 => Json.array_id (fun y647 hy647 => Method.json_rt ((h.methods y646 hy646) y647 hy647)))) ?_
  refine bindOk (Json.opt_id hn (.tail _ (.tail _ (.tail _ (.head _)))) (fun y648 hy648 => Json.ofList_ne_null)
      (fun y648 hy648 => Json.array_id (fun _ _ => rfl))) ?_
  rfl

theorem Identity.xml_body_wf {loose : Bool} {x : Identity} : WellFormed loose (
    ((fun e => writeSimple "field" (IdentityField.display e)) x.field) ++
    ((writeOpt (fun n => writeSimple "confidence" (F32Format.display n)) x.confidence) ++
    ((writeOpt (writeList "methods" Method.writeXml) x.methods) ++
    ((writeOpt (writeList "tools" (writeRef "tool")) x.tools))))) :=
  (.append (writeSimple_wf)
    (.append (writeOpt_wf fun _ _ => writeSimple_wf)
    (.append (writeOpt_wf fun _ _ => (writeList_wf fun _ _ => Method.xml_wf))
    (writeOpt_wf fun _ _ => (writeList_wf fun _ _ => writeRef_wf)))))

theorem Identity.xml_one {loose : Bool} {x : Identity} :
    OneElement loose "identity" (Identity.writeXml x) :=
  writeElem_one goodNil (Identity.xml_body_wf)

theorem Identity.xml_wf {loose : Bool} {x : Identity} :
    WellFormed loose (Identity.writeXml x) :=
  (Identity.xml_one).wf

theorem Identity.arms_local :
    ∀ p ∈ Identity.arms, LocalArm p.1 p.2 :=
  (armsCons (arm_local (map_local readSimple_local IdentityField.new) _)
    (armsCons (arm_local readF32_local _)
    (armsCons (arm_local (readList_local (Method.xml_local (tag := "method") (by decide))) _)
    (armsCons (arm_local readToolRefs_local _)
    armsNil))))

theorem Identity.xml_local {tag : String} (ht : tag ∈ ignoring) :
    LocalAt tag Identity.readXml :=
  readStruct_local (fun _ => ht) (Identity.arms_local)

theorem Identity.xml_reads {ns : Option String} {x : Identity} (h : Identity.XmlOk x) :
    Reads ns (Identity.writeXml x) "identity" Identity.readXml x := by
  have hn : ["field", "confidence", "methods", "tools"].Nodup := by decide
  refine reads_struct (Identity.xml_body_wf) rfl
      (Goes.append (Goes.one (reads_enum h.field) (.head _) hn)
        (Goes.append (Goes.opt (fun o s => { s with confidence := o }) (.tail _ (.head _)) hn (fun _ => rfl) rfl
          (fun y652 hy652 => reads_f32 (h.confidence y652 hy652)))
        (Goes.append (Goes.opt (fun o s => { s with methods := o }) (.tail _ (.tail _ (.head _))) hn (fun _ => rfl) rfl
          (fun y653 hy653 => reads_list (fun y654 hy654 => Method.xml_reads ((h.methods y653 hy653) y654 hy654)) (fun _ _ => Method.xml_wf)))
        (Goes.opt (fun o s => { s with tools := o }) (.tail _ (.tail _ (.tail _ (.head _)))) hn (fun _ => rfl) rfl
          (fun y655 hy655 => reads_toolRefs))
        (writeOpt_wf fun _ _ => (writeList_wf fun _ _ => Method.xml_wf)))
        (writeOpt_wf fun _ _ => writeSimple_wf))
        (writeSimple_wf)) ?_
  rfl

theorem ComponentEvidence.json_ne_null {v : SpecVersion} {x : ComponentEvidence} :
    ComponentEvidence.toJson v x ≠ .null := Json.mk_ne_null _

theorem ComponentEvidence.json_rt (v : SpecVersion) {x : ComponentEvidence} (h : ComponentEvidence.JsonOk v x) :
    ComponentEvidence.ofJson v (ComponentEvidence.toJson v x) = .ok (x.at v) := by
  cases v with
  | v1_3 =>
    have hn : ["licenses", "copyright"].Nodup := by decide
    refine bindOk (Json.fields_mk _) ?_
    refine bindOk (Json.opt_mk hn (.head _) (fun y659 hy659 => Licenses.json_ne_null)
        (fun y659 hy659 => Licenses.json_rt .v1_3 (h.licenses y659 hy659))) ?_
    refine bindOk (Json.opt_id hn (.tail _ (.head _)) (fun y660 hy660 => Json.ofList_ne_null)
        (fun y660 hy660 => Json.array_id (fun y661 hy661 => Copyright.json_rt))) ?_
    refine bindOk rfl ?_
    refine bindOk rfl ?_
    refine bindOk rfl ?_
    rfl
  | v1_4 =>
    have hn : ["licenses", "copyright"].Nodup := by decide
    refine bindOk (Json.fields_mk _) ?_
    refine bindOk (Json.opt_mk hn (.head _) (fun y662 hy662 => Licenses.json_ne_null)
        (fun y662 hy662 => Licenses.json_rt .v1_4 (h.licenses y662 hy662))) ?_
    refine bindOk (Json.opt_id hn (.tail _ (.head _)) (fun y663 hy663 => Json.ofList_ne_null)
        (fun y663 hy663 => Json.array_id (fun y664 hy664 => Copyright.json_rt))) ?_
    refine bindOk rfl ?_
    refine bindOk rfl ?_
    refine bindOk rfl ?_
    rfl
  | v1_5 =>
    have hn : ["licenses", "copyright", "occurrences", "callstack", "identity"].Nodup := by decide
    refine bindOk (Json.fields_mk _) ?_
    refine bindOk (Json.opt_mk hn (.head _) (fun y665 hy665 => Licenses.json_ne_null)
        (fun y665 hy665 => Licenses.json_rt .v1_5 (h.licenses y665 hy665))) ?_
    refine bindOk (Json.opt_id hn (.tail _ (.head _)) (fun y666 hy666 => Json.ofList_ne_null)
        (fun y666 hy666 => Json.array_id (fun y667 hy667 => Copyright.json_rt))) ?_
    refine bindOk (Json.opt_id hn (.tail _ (.tail _ (.head _))) (fun y668 hy668 => Json.ofList_ne_null)
        (fun y668 hy668 => Json.array_id (fun y669 hy669 => Occurrence.json_rt))) ?_
    refine bindOk (Json.opt_id hn (.tail _ (.tail _ (.tail _ (.head _)))) (fun y670 hy670 => Callstack.json_ne_null)
        (fun y670 hy670 => Callstack.json_rt ((h.callstack rfl) y670 hy670))) ?_
    refine bindOk (Json.opt_id hn (.tail _ (.tail _ (.tail _ (.tail _ (.head _))))) (fun y671 hy671 => Identity.json_ne_null)
        (fun y671 hy671 => Identity.json_rt ((h.identity rfl) y671 hy671))) ?_
    rfl

theorem ComponentEvidence.xml_body_wf {loose : Bool} {v : SpecVersion} {x : ComponentEvidence} : WellFormed loose (
    (writeOpt (Licenses.writeXml v) x.licenses) ++
    ((writeOpt (writeList "copyright" (writeCdata "text")) x.copyright))) :=
  (.append (writeOpt_wf fun _ _ => Licenses.xml_wf)
    (writeOpt_wf fun _ _ => (writeList_wf fun _ _ => writeCdata_wf)))

theorem ComponentEvidence.xml_one {loose : Bool} {v : SpecVersion} {x : ComponentEvidence} :
    OneElement loose "evidence" (ComponentEvidence.writeXml v x) :=
  writeElem_one goodNil (ComponentEvidence.xml_body_wf)

theorem ComponentEvidence.xml_wf {loose : Bool} {v : SpecVersion} {x : ComponentEvidence} :
    WellFormed loose (ComponentEvidence.writeXml v x) :=
  (ComponentEvidence.xml_one).wf

theorem ComponentEvidence.arms_local (v : SpecVersion) :
    ∀ p ∈ ComponentEvidence.arms v, LocalArm p.1 p.2 :=
  (armsAppend (armsCons (arm_local (Licenses.xml_local v) _)
    (armsCons (arm_local (readList_local readSimple_local) _)
    armsNil))
    (armsSince15 (armsCons (arm_local (readList_local Occurrence.xml_local) _)
    (armsCons (arm_local (Callstack.xml_local (tag := "callstack") (by decide)) _)
    (armsCons (arm_local (Identity.xml_local (tag := "identity") (by decide)) _)
    armsNil)))))

theorem ComponentEvidence.xml_local (v : SpecVersion) {tag : String} (ht : tag ∈ ignoring) :
    LocalAt tag (ComponentEvidence.readXml v) :=
  readStruct_local (fun _ => ht) (ComponentEvidence.arms_local v)

theorem ComponentEvidence.xml_reads (v : SpecVersion) {ns : Option String} {x : ComponentEvidence} (h : ComponentEvidence.XmlOk v x) :
    Reads ns (ComponentEvidence.writeXml v x) "evidence" (ComponentEvidence.readXml v) (x.at v) := by
  cases v with
  | v1_3 =>
    have hn : ["licenses", "copyright"].Nodup := by decide
    refine reads_struct (ComponentEvidence.xml_body_wf) rfl
        (Goes.append (Goes.opt_at (fun o s => { s with licenses := o }) (.head _) hn (fun _ => rfl) rfl
            (fun y675 hy675 => Licenses.xml_reads .v1_3 (h.licenses y675 hy675)))
          (Goes.opt (fun o s => { s with copyright := o }) (.tail _ (.head _)) hn (fun _ => rfl) rfl
            (fun y676 hy676 => reads_list (fun y677 hy677 => reads_cdata (h.copyright y676 hy676 y677 hy677)) (fun _ _ => writeCdata_wf)))
          (writeOpt_wf fun _ _ => Licenses.xml_wf)) ?_
    rfl
  | v1_4 =>
    have hn : ["licenses", "copyright"].Nodup := by decide
    refine reads_struct (ComponentEvidence.xml_body_wf) rfl
        (Goes.append (Goes.opt_at (fun o s => { s with licenses := o }) (.head _) hn (fun _ => rfl) rfl
            (fun y678 hy678 => Licenses.xml_reads .v1_4 (h.licenses y678 hy678)))
          (Goes.opt (fun o s => { s with copyright := o }) (.tail _ (.head _)) hn (fun _ => rfl) rfl
            (fun y679 hy679 => reads_list (fun y680 hy680 => reads_cdata (h.copyright y679 hy679 y680 hy680)) (fun _ _ => writeCdata_wf)))
          (writeOpt_wf fun _ _ => Licenses.xml_wf)) ?_
    rfl
  | v1_5 =>
    obtain ⟨licenses, copyright, occurrences, callstack, identity⟩ := x
    obtain rfl : occurrences = none := (h.occurrences rfl)
    obtain rfl : callstack = none := (h.callstack rfl)
    obtain rfl : identity = none := (h.identity rfl)
    have hn : ["licenses", "copyright", "occurrences", "callstack", "identity"].Nodup := by decide
    refine reads_struct (ComponentEvidence.xml_body_wf) rfl
        (Goes.append (Goes.opt_at (fun o s => { s with licenses := o }) (.head _) hn (fun _ => rfl) rfl
            (fun y681 hy681 => Licenses.xml_reads .v1_5 (h.licenses y681 hy681)))
          (Goes.opt (fun o s => { s with copyright := o }) (.tail _ (.head _)) hn (fun _ => rfl) rfl
            (fun y682 hy682 => reads_list (fun y683 hy683 => reads_cdata (h.copyright y682 hy682 y683 hy683)) (fun _ _ => writeCdata_wf)))
          (writeOpt_wf fun _ _ => Licenses.xml_wf)) ?_
    rfl

end Cdx
