import Verif.Props.ExampleBom
import Verif.Lemmas.Format.Document
import Verif.Lemmas.Format.At
import Verif.Lemmas.Format.Lax
import Verif.Lemmas.Format.Converts
import Verif.Lemmas.ValueRead

/-!
# Properties C35, C39-C41, C43, C44, C58, C60-C62: reading and writing documents
-/

set_option linter.unusedSectionVars false

namespace Cdx.Props
open Cdx

/-! ## C35: the version of a JSON document -/

/-- The value of `specVersion` that stands for a version. -/
def versionLabel : SpecVersion → String
  | .v1_3 => "1.3"
  | .v1_4 => "1.4"
  | .v1_5 => "1.5"

/-- A JSON document is an object whose `specVersion` (the last, if there are several) is the label of
a version. -/
def LabelledAs (v : SpecVersion) (j : Json) : Prop :=
  ∃ o, j = .obj o ∧ o.reverse.lookup "specVersion" = some (.str (versionLabel v))

section
variable [F32Format] [ReadLimit] {v : SpecVersion} {b : Bom}

theorem labelled_value {j : Json} : LabelledAs v j ↔
    ∃ o, j.toValue = .obj o ∧ o.lookup "specVersion" = some (.str (versionLabel v)) := by
  constructor
  · rintro ⟨o, rfl, h⟩
    refine ⟨_, rfl, ?_⟩
    rw [lookup_toValue, h]
    rfl
  · rintro ⟨o, e, h⟩
    cases j with
    | obj p =>
      cases e
      refine ⟨p, rfl, ?_⟩
      rw [lookup_toValue] at h
      cases hp : p.reverse.lookup "specVersion" with
      | none => rw [hp] at h; cases h
      | some x =>
        rw [hp] at h
        rw [toValue_str.mp (Option.some.inj h)]
    | arr l => cases e
    | _ => cases e

/-- C35: a document that is labelled with a version is read by the reader of this version, given what
the JSON library makes of the document (see C80 for what that is). -/
theorem C35_selects {j : Json} (h : LabelledAs v j) : Bom.parseJson j = Bom.parseJsonWith v j.toValue := by
  obtain ⟨o, e, h⟩ := labelled_value.mp h
  rw [Bom.parseJson, e]
  cases v <;> (unfold Bom.parseJsonValue Bom.parseJsonWith; simp only [h]; rfl)

/-- C35: any other document is rejected: without `specVersion`, with something else than a string
there, or with another string. -/
theorem C35_rejects {j : Json} (h : ∀ v, ¬ LabelledAs v j) : ∃ e, Bom.parseJson j = .error e := by
  unfold Bom.parseJson Bom.parseJsonValue
  split
  · rename_i o ho
    split
    · rename_i s hs
      split
      · rename_i v hv
        have : s = versionLabel v := by
          unfold SpecVersion.ofString at hv
          split at hv <;> cases hv <;> rfl
        exact absurd (labelled_value.mpr ⟨o, ho, this ▸ hs⟩) (h v)
      · exact ⟨_, rfl⟩
    · exact ⟨_, rfl⟩
    · exact ⟨_, rfl⟩
  · exact ⟨_, rfl⟩

/-- C35: what is read carries the version that the document is labelled with. -/
theorem C35_labels {j : Json} (h : Bom.parseJson j = .ok b) : LabelledAs b.specVersion j := by
  have hl : ∃ v, LabelledAs v j := by
    apply Classical.byContradiction
    intro hn
    obtain ⟨e, he⟩ := C35_rejects (j := j) fun v hv => hn ⟨v, hv⟩
    rw [h] at he
    cases he
  obtain ⟨v, hv⟩ := hl
  rw [C35_selects hv] at h
  have hu := toValue_unique j
  obtain ⟨o, e, ho⟩ := labelled_value.mp hv
  refine labelled_value.mpr ⟨o, e, ?_⟩
  rw [e] at h hu
  cases hu with | obj hn _ =>
  unfold Bom.parseJsonWith Bom.ofJson at h
  have hr : Json.req o "specVersion" SpecVersion.ofJson = .ok v := by
    unfold Json.req
    rw [Json.get_nodup hn, ho]
    cases v <;> rfl
  simp only [Json.fields, hr, bind, Except.bind] at h
  repeat (split at h; · cases h)
  cases h
  exact ho

theorem written_labelled : LabelledAs v (b.toJson v) := by
  have hu := Bom.toJson_unique v b
  cases v <;>
    (refine ⟨_, rfl, ?_⟩
     cases hu with | obj hn _ => rw [lookup_reverse hn]; rfl)

end

example : LabelledAs .v1_4 (.obj [("bomFormat", .str "CycloneDX"), ("specVersion", .str "1.4")]) :=
  ⟨_, rfl, rfl⟩

example : ∀ v, ¬ LabelledAs v (.obj [("bomFormat", .str "CycloneDX"), ("specVersion", .str "1.6")]) := by
  rintro v ⟨o, ho, h⟩
  cases ho
  cases v <;> (injection h with h; injection h with h; exact absurd h (by decide))

/-! ## C44: JSON -/

section
variable [F32Format] [ReadLimit] {v : SpecVersion} {b : Bom}

/-- C44: writing a document as JSON and reading it back gives what the version has of the document,
with the reader that picks the version as with the reader for the version. `Bom.JsonOk` excludes
what is not kept; see the counterexamples below. -/
theorem C44_json_partial (h : Bom.JsonOk v b) :
    ∃ j, b.outputJson v = .ok j ∧ Bom.parseJson j = .ok (b.at v) ∧
      Bom.parseJsonWith v j = .ok (b.at v) := by
  refine ⟨b.toJson v, ?_, ?_, Bom.json_rt v h⟩
  · unfold Bom.outputJson
    rw [if_pos h.converts]
  · rw [C35_selects written_labelled, Bom.parseJsonWith, Bom.ofJson_written]
    exact Bom.json_rt v h

/-- C44: for version 1.5 this is the document itself. -/
theorem C44_json_same_partial (h : Bom.JsonOk .v1_5 b) (hv : b.specVersion = .v1_5) :
    ∃ j, b.outputJson .v1_5 = .ok j ∧ Bom.parseJson j = .ok b := by
  obtain ⟨j, h1, h2, -⟩ := C44_json_partial h
  refine ⟨j, h1, ?_⟩
  rw [h2, Bom.at_v1_5]
  cases b
  cases hv
  rfl

end

attribute [local instance] Example.f32 Example.limit in
example : Bom.JsonOk .v1_3 Example.bom ∧ Bom.JsonOk .v1_5 Example.bom ∧
    Example.bom.specVersion = .v1_5 ∧ (Example.bom.at .v1_3).vulnerabilities = none :=
  ⟨Example.bom_jsonOk _, Example.bom_jsonOk _, rfl, rfl⟩

section
variable [F32Format] [ReadLimit] {v : SpecVersion} {b : Bom}

/-- A chain of signatures is read back as signatures of several signers. -/
theorem C44_chain_lost (l : List Signer) (h : Bom.JsonOk .v1_5 { b with signature := some (.signers l) }) :
    ∃ j, Bom.outputJson .v1_5 { b with signature := some (.chain l) } = .ok j ∧
      Bom.parseJson j = .ok { b with signature := some (.signers l), specVersion := .v1_5 } := by
  obtain ⟨j, h1, h2, -⟩ := C44_json_partial h
  rw [Bom.at_v1_5] at h2
  exact ⟨j, h1, h2⟩

/-- The name of an unknown algorithm of a signature is lost. -/
theorem C44_algorithm_lost (a s : String) :
    Bom.outputJson .v1_5 { b with signature := some (.single ⟨.unknown a, s⟩) } =
      Bom.outputJson .v1_5 { b with signature := some (.single ⟨.unknown "other", s⟩) } :=
  rfl

/-- Data flows of services are written with all they have, but read back as classifications. -/
theorem C44_data_flow_lost {l : List ServiceData}
    (h : ∀ x ∈ l, Stable DataFlowType.display DataFlowType.new x.classification.flow) :
    ServiceDataChoice.ofJson .v1_5 (ServiceDataChoice.toJson .v1_5 (.serviceData l)) =
      .ok (.classification (l.map (·.classification))) := by
  have hx : ∀ x : ServiceData, Stable DataFlowType.display DataFlowType.new x.classification.flow →
      DataClassification.ofJson (ServiceData.toJson x) = .ok x.classification := by
    intro x hx
    have hn : ["name", "description", "flow", "classification", "governance", "source",
      "destination"].Nodup := by decide
    refine bindOk (Json.fields_mk _) ?_
    refine bindOk (Json.req_mk hn (.tail _ (.tail _ (.head _))) (Json.enum_rt hx)) ?_
    refine bindOk (Json.req_mk hn (.tail _ (.tail _ (.tail _ (.head _)))) (rfl)) ?_
    rfl
  have : Json.array DataClassification.ofJson (Json.ofList ServiceData.toJson l) =
      .ok (l.map (·.classification)) := Json.array_ofList fun x hm => hx x (h x hm)
  simp only [ServiceDataChoice.ofJson, ServiceDataChoice.toJson, since15, this]

end

example : ∃ l : List ServiceData, l ≠ [] ∧
    ∀ x ∈ l, Stable DataFlowType.display DataFlowType.new x.classification.flow :=
  ⟨[{ name := some "n", classification := ⟨.inbound, "c"⟩ }], by simp, by simp [Stable]; rfl⟩

/-! ## C40, C61: what is written as XML -/

section
variable [F32Format] [ReadLimit] {v : SpecVersion} {b : Bom} {ns : String} {w : List WEvent}

/-- C40: what is written as XML is one element `bom`: start tags and end tags are balanced. -/
theorem C40_one_root (h : b.outputXml v = .ok (ns, w)) : OneElement true "bom" w := by
  unfold Bom.outputXml at h
  split at h
  · cases h
    exact Bom.xml_one fun _ => rfl
  · cases h

/-- C40: the document is a tree: every start tag is closed by its own end tag. -/
theorem C40_tree (h : b.outputXml v = .ok (ns, w)) :
    ∃ attrs children, document ns w =
      .startDocument :: ((XNode.elem ⟨"bom", some ns, none⟩ attrs (some ns) children).events ++
        [.endDocument]) := by
  obtain ⟨attrs, body, -, hb, rfl⟩ := C40_one_root h
  obtain ⟨children, hc⟩ := WellFormed.tree hb (some ns)
  refine ⟨attrs, children, ?_⟩
  have := deliver_elem (tag := "bom") (attrs := attrs) hb (some ns)
  unfold writeElem at this
  rw [document, this, hc]
  simp [XNode.events]

/-- C40: the root is in the namespace of the version. -/
theorem C40_namespace (h : b.outputXml v = .ok (ns, w)) :
    ns = "http://cyclonedx.org/schema/bom/" ++ versionLabel v := by
  unfold Bom.outputXml at h
  split at h <;> cases h
  cases v <;> rfl

/-- The attributes of every start tag of an element. -/
theorem good_keys {loose : Bool} {tag : String} (hw : OneElement loose tag w) {t : String}
    {attrs : List (String × String)} (hm : .start t attrs ∈ w) : GoodKeys loose t (attrs.map (·.1)) := by
  obtain ⟨a, body, ha, hb, rfl⟩ := hw
  have key : ∀ {w : List WEvent}, WellFormed loose w → .start t attrs ∈ w → GoodKeys loose t (attrs.map (·.1)) := by
    intro w hw
    induction hw with
    | nil => intro h; cases h
    | chars s => intro h; simp at h
    | cdata s => intro h; simp at h
    | elem tag attrs' hk _ ih =>
      intro h
      simp only [List.mem_cons, List.mem_append, List.not_mem_nil, or_false, WEvent.start.injEq, reduceCtorEq] at h
      rcases h with ⟨rfl, rfl⟩ | h
      · exact hk
      · exact ih h
    | append _ _ iha ihb =>
      intro h
      exact (List.mem_append.mp h).elim iha ihb
  exact key (.elem _ _ ha hb) hm

/-- C61 (partial): up to version 1.4, no start tag has an attribute twice. -/
theorem C61_attributes_partial (hv : v ≠ .v1_5) (h : b.outputXml v = .ok (ns, w)) {t : String}
    {attrs : List (String × String)} (hm : .start t attrs ∈ w) : (attrs.map (·.1)).Nodup := by
  unfold Bom.outputXml at h
  split at h
  · cases h
    exact (good_keys (Bom.xml_one (loose := false) fun e => absurd e hv) hm).resolve_right nofun
  · cases h

/-- C61 (partial): in version 1.5, the only start tags with an attribute twice are those of attached
content with both an encoding and a content type, and of data flows with both a name and a
description. -/
theorem C61_attributes15_partial (h : b.outputXml v = .ok (ns, w)) {t : String}
    {attrs : List (String × String)} (hm : .start t attrs ∈ w) (hd : ¬ (attrs.map (·.1)).Nodup) :
    (∃ x y, attrs = [("encoding", x), ("encoding", y)]) ∨
    t = "dataflow" ∧ ∃ x y, attrs = [("name", x), ("name", y)] := by
  have two : ∀ {k : String}, attrs.map (·.1) = [k, k] → ∃ x y, attrs = [(k, x), (k, y)] := by
    intro k e
    match attrs, e with
    | [(a, x), (b, y)], e =>
      simp only [List.map_cons, List.map_nil, List.cons.injEq, and_true] at e
      exact ⟨x, y, by rw [e.1, e.2]⟩
  rcases good_keys (C40_one_root h) hm with hn | ⟨-, he | ⟨rfl, he⟩⟩
  · exact absurd hn hd
  · exact .inl (two he)
  · exact .inr ⟨rfl, two he⟩

/-- C61: in version 1.5, a document with a data flow that has a name and a description is written
with an attribute twice. -/
theorem C61_fails : ∃ b ns w t attrs, Bom.outputXml .v1_5 b = .ok (ns, w) ∧ .start t attrs ∈ w ∧
    ¬ (attrs.map (·.1)).Nodup :=
  ⟨{ version := 1, specVersion := .v1_5, services := some [{ name := "s", data := some (.serviceData
        [{ name := some "n", description := some "d", classification := ⟨.inbound, "c"⟩ }]) }] },
    _, _, "dataflow", [("name", "n"), ("name", "d")], rfl, of_decide_eq_true rfl, by decide⟩

/-- A data set with an attachment that has an encoding and a content type. -/
def attachedData : ComponentData :=
  let attachment : Attachment := { content := "c", contentType := some "text/plain", encoding := some "base64" }
  { dataType := .dataset, contents := some { attachment := some attachment } }

/-- C61: so is a document with an attachment that has an encoding and a content type. -/
theorem C61_fails_attachment : ∃ b ns w t attrs, Bom.outputXml .v1_5 b = .ok (ns, w) ∧ .start t attrs ∈ w ∧
    ¬ (attrs.map (·.1)).Nodup :=
  ⟨{ version := 1, specVersion := .v1_5,
     components := some [{ componentType := .data, name := "c", data := some attachedData }] },
    _, _, "attachment", [("encoding", "base64"), ("encoding", "text/plain")], rfl, of_decide_eq_true rfl, by decide⟩

end

attribute [local instance] Example.f32 Example.limit in
example : ∃ ns w, Bom.outputXml .v1_3 Example.bom = .ok (ns, w) ∧ 100 < w.length :=
  ⟨_, _, rfl, by decide +kernel⟩

/-! ## C41: XML -/

section
variable [F32Format] [ReadLimit] {v : SpecVersion} {b : Bom}

/-- C41: writing a document as XML and reading it back gives what the version has of the document.
`Bom.XmlOk` excludes what is not kept; see the counterexamples below. -/
theorem C41_xml_partial (h : Bom.XmlOk v b) :
    ∃ ns w, b.outputXml v = .ok (ns, w) ∧ Bom.parseXmlWith v (document ns w) = .ok (b.at v) := by
  refine ⟨v.namespace, b.writeXml v, ?_, Bom.document_reads h⟩
  unfold Bom.outputXml
  rw [if_pos h.converts]

/-- C41: for version 1.5 this is the document itself. -/
theorem C41_xml_same_partial (h : Bom.XmlOk .v1_5 b) (hv : b.specVersion = .v1_5) :
    ∃ ns w, b.outputXml .v1_5 = .ok (ns, w) ∧ Bom.parseXmlWith .v1_5 (document ns w) = .ok b := by
  obtain ⟨ns, w, h1, h2⟩ := C41_xml_partial h
  refine ⟨ns, w, h1, ?_⟩
  rw [h2, Bom.at_v1_5]
  cases b
  cases hv
  rfl

/-- The signature of a document and its annotations are not written as XML. -/
theorem C41_signature_lost (s : Option Signature) (a : Option (List Annotation)) :
    Bom.outputXml v { b with signature := s, annotations := a } = b.outputXml v := by
  have : Bom.converts v { b with signature := s, annotations := a } = b.converts v := by
    cases v <;> rfl
  unfold Bom.outputXml
  rw [this]
  rfl

/-- The terms of a license are not written as XML. -/
theorem C41_licensing_lost (l : License) (x : Option Licensing) :
    License.writeXml v { l with licensing := x } = License.writeXml v l := by
  cases v <;> rfl

/-- Occurrences, call stack and identity of evidence are not written as XML. -/
theorem C41_evidence_lost (e : ComponentEvidence) (o : Option (List Occurrence)) (c : Option Callstack)
    (i : Option Identity) :
    ComponentEvidence.writeXml v { e with occurrences := o, callstack := c, identity := i } =
      ComponentEvidence.writeXml v e := by
  cases v <;> rfl

/-- The proof of concept of a vulnerability is not written as XML. -/
theorem C41_proof_lost (x : Vulnerability) (p : Option VulnerabilityProofOfConcept) :
    Vulnerability.writeXml v { x with proofOfConcept := p } = Vulnerability.writeXml v x := by
  cases v <;> rfl

/-- White space around a text is lost. -/
theorem C41_blanks_lost : ∃ ns w b', Bom.outputXml .v1_5
      { version := 1, specVersion := .v1_5, properties := some [⟨"a", " b "⟩] } = .ok (ns, w) ∧
    Bom.parseXmlWith .v1_5 (document ns w) = .ok b' ∧ b'.properties = some [⟨"a", "b"⟩] :=
  ⟨_, _, _, rfl, rfl, rfl⟩

/-- A license whose text is empty. -/
def emptyText : Licenses := [.license { licenseIdentifier := .name "n", text := some { content := "" } }]

/-- A workflow with a task. -/
def withTask : Workflow where
  bomRef := "w"
  uid := "u"
  taskTypes := [.build]
  tasks := some [{ bomRef := "t", uid := "v", taskTypes := [.build] }]

/-- An empty license text makes the document unreadable. -/
theorem C41_empty_text_rejected : ∃ ns w e, Bom.outputXml .v1_5
      { version := 1, specVersion := .v1_5, metadata := some { licenses := some emptyText } } = .ok (ns, w) ∧
    Bom.parseXmlWith .v1_5 (document ns w) = .error e :=
  ⟨_, _, _, rfl, rfl⟩

/-- A task of a workflow makes the document unreadable. -/
theorem C41_task_rejected : ∃ ns w e, Bom.outputXml .v1_5
      { version := 1, specVersion := .v1_5, formulation := some [{ workflows := some [withTask] }] } = .ok (ns, w) ∧
    Bom.parseXmlWith .v1_5 (document ns w) = .error e :=
  ⟨_, _, _, rfl, rfl⟩

/-- An empty list of tools is read back as the other kind of tools. -/
theorem C41_no_tools : ∃ ns w b', Bom.outputXml .v1_5
      { version := 1, specVersion := .v1_5, metadata := some { tools := some (.list []) } } = .ok (ns, w) ∧
    Bom.parseXmlWith .v1_5 (document ns w) = .ok b' ∧
      b'.metadata = some { tools := some (.object none none) } :=
  ⟨_, _, _, rfl, rfl, rfl⟩

/-- An author without name, address and phone number is lost. -/
theorem C41_author_lost : ∃ ns w b', Bom.outputXml .v1_5
      { version := 1, specVersion := .v1_5, metadata := some { authors := some [{}] } } = .ok (ns, w) ∧
    Bom.parseXmlWith .v1_5 (document ns w) = .ok b' ∧ b'.metadata = some { authors := some [] } :=
  ⟨_, _, _, rfl, rfl, rfl⟩

end

attribute [local instance] Example.f32 Example.limit in
example : Bom.XmlOk .v1_3 Example.bom ∧ Bom.XmlOk .v1_5 Example.bom ∧
    Example.bom.specVersion = .v1_5 :=
  ⟨Example.bom_xmlOk _, Example.bom_xmlOk _, rfl⟩

/-! ## C62: the version of an XML document -/

section
variable [F32Format] [ReadLimit] {v v' : SpecVersion} {b : Bom} {evs : List XEvent}

/-- C62: the XML reader of a version accepts only documents whose root is called `bom` and is in the
namespace of this version, and what it returns carries this version. -/
theorem C62_accepts_own (h : Bom.parseXmlWith v evs = .ok b) :
    b.specVersion = v ∧ ∃ name attrs l, name.localName = "bom" ∧
      evs = .startDocument ::
        .start name attrs (some ("http://cyclonedx.org/schema/bom/" ++ versionLabel v)) :: l := by
  unfold Bom.parseXmlWith Bom.readDocument at h
  split at h
  · rename_i n attrs ns l
    split at h
    · rename_i hn
      split at h
      · rename_i hns
        simp only [bind, Except.bind] at h
        repeat (split at h; · cases h)
        split at h <;> cases h
        refine ⟨rfl, n, attrs, l, hn, ?_⟩
        rw [hns]
        cases v <;> rfl
      · cases h
    · cases h
  all_goals cases h

/-- C62: in particular, no document that was written as another version. -/
theorem C62_rejects_others {ns : String} {w : List WEvent} (hv : v ≠ v')
    (h : b.outputXml v = .ok (ns, w)) : ∃ e, Bom.parseXmlWith v' (document ns w) = .error e := by
  obtain ⟨attrs, children, hd⟩ := C40_tree h
  have hns := C40_namespace h
  cases hp : Bom.parseXmlWith v' (document ns w) with
  | error e => exact ⟨e, rfl⟩
  | ok x =>
    obtain ⟨-, name, attrs', l, -, he⟩ := C62_accepts_own hp
    rw [hd] at he
    simp only [XNode.events, List.cons_append, List.cons.injEq, XEvent.start.injEq, Option.some.injEq,
      true_and] at he
    exfalso
    obtain ⟨⟨-, -, he⟩, -⟩ := he
    rw [hns] at he
    cases v <;> cases v' <;> first | exact hv rfl | exact absurd he (by decide)

/-- For JSON only the reader that picks the version looks at the label. The reader for a version takes
a document of another version, drops what its own version does not have, and keeps the label. -/
theorem C62_json_takes_others : ∃ j b, Bom.outputJson .v1_5
      { version := 1, specVersion := .v1_5, properties := some [⟨"a", "b"⟩] } = .ok j ∧
    Bom.parseJsonWith .v1_3 j = .ok b ∧ b.specVersion = .v1_5 ∧ b.properties = none :=
  ⟨_, _, rfl, rfl, rfl, rfl⟩

end

attribute [local instance] Example.f32 Example.limit in
example : ∃ evs b, Bom.parseXmlWith .v1_4 evs = .ok b ∧ b.components ≠ none := by
  obtain ⟨ns, w, -, h⟩ := C41_xml_partial (Example.bom_xmlOk .v1_4)
  exact ⟨_, _, h, by decide⟩

/-! ## C58: which documents can be written -/

section
variable [F32Format] [ReadLimit] {v : SpecVersion} {b : Bom}

/-- C58: writing a document as version 1.3 fails exactly if one of the components in it has no
version; writing it as another version never fails. For JSON. -/
theorem C58_json : (∃ j, b.outputJson v = .ok j) ↔
    (v = .v1_3 → ∀ c, b.Contains c → c.version ≠ none) := by
  have h : b.converts v = true ↔ (v = .v1_3 → ∀ c, b.Contains c → c.version ≠ none) := by
    cases v with
    | v1_3 => exact (Bom.converts13_iff b).trans ⟨fun h _ => h, fun h => h rfl⟩
    | v1_4 => exact ⟨fun _ e => (by cases e), fun _ => rfl⟩
    | v1_5 => exact ⟨fun _ e => (by cases e), fun _ => rfl⟩
  rw [← h]
  unfold Bom.outputJson
  split
  · rename_i hc
    exact ⟨fun _ => hc, fun _ => ⟨_, rfl⟩⟩
  · rename_i hc
    exact ⟨fun ⟨_, e⟩ => (by cases e), fun e => absurd e hc⟩

/-- C58, for XML. -/
theorem C58_xml : (∃ ns w, b.outputXml v = .ok (ns, w)) ↔
    (v = .v1_3 → ∀ c, b.Contains c → c.version ≠ none) := by
  rw [← C58_json]
  unfold Bom.outputXml Bom.outputJson
  split
  · exact ⟨fun _ => ⟨_, rfl⟩, fun _ => ⟨_, _, rfl⟩⟩
  · constructor
    · rintro ⟨_, _, h⟩
      cases h
    · rintro ⟨_, h⟩
      cases h

end

example : ∃ (b : Bom) (c : Component), b.Contains c ∧ c.version = none ∧ b.metadata = none ∧
    ∀ l, b.components = some l → c ∉ l :=
  ⟨{ version := 1, specVersion := .v1_5,
     components := some [{ componentType := .library, name := "a", version := some "1",
                           components := some [{ componentType := .library, name := "b" }] }] },
   { componentType := .library, name := "b" },
   .nested (.components rfl (.head _)) rfl (.head _), rfl, rfl,
   by rintro l ⟨⟩; simp⟩

/-! ## C60: what a version does not have is not written -/

section
variable [F32Format] [ReadLimit] {v : SpecVersion} {b b' : Bom}

/-- C60: what is written depends only on what the version has of the document. -/
theorem C60_only_what_the_version_has (h : b.at v = b'.at v) :
    b.outputJson v = b'.outputJson v ∧ b.outputXml v = b'.outputXml v := by
  constructor
  · unfold Bom.outputJson
    rw [← Bom.converts_at, ← Bom.toJson_at, h, Bom.converts_at, Bom.toJson_at]
  · unfold Bom.outputXml
    rw [← Bom.converts_at, ← Bom.writeXml_at, h, Bom.converts_at, Bom.writeXml_at]

/-- C60: what version 1.5 has of a document is the document, but for the label. -/
theorem C60_newest_has_all : b.at .v1_5 = { b with specVersion := .v1_5 } := Bom.at_v1_5 b

/-- C60: what a version has of a document has itself nothing that the version does not have. -/
theorem C60_idempotent : (b.at v).at v = b.at v := Bom.at_at v b

/-- C60: what the older versions lack at the top of a document. -/
theorem C60_lacks :
    (b.at .v1_3).vulnerabilities = none ∧ (b.at .v1_3).signature = none ∧
    (b.at .v1_3).annotations = none ∧ (b.at .v1_3).formulation = none ∧ (b.at .v1_3).properties = none ∧
    (b.at .v1_4).annotations = none ∧ (b.at .v1_4).formulation = none ∧ (b.at .v1_4).properties = none :=
  ⟨rfl, rfl, rfl, rfl, rfl, rfl, rfl, rfl⟩

end

attribute [local instance] Example.f32 Example.limit in
example : (Example.bom.at .v1_3) = (Bom.at .v1_3 { Example.bom with formulation := none }) ∧
    Example.bom.formulation ≠ none :=
  ⟨rfl, by decide⟩

/-! ## C39: from the program's structures to those of a version and back -/

section
variable [F32Format] [ReadLimit] {v : SpecVersion} {b : Bom}

/-- C39: seen through the files: what is written and read back is what the version has of the
document, which for version 1.5 is the document. Here the round trip is shown for documents that JSON
or XML keep; `Props/Convert.lean` has it for the structures of the versions by themselves. -/
theorem C39_json_partial (h : Bom.JsonOk v b) :
    ∃ j, b.outputJson v = .ok j ∧ Bom.parseJsonWith v j = .ok (b.at v) := by
  obtain ⟨j, h1, -, h2⟩ := C44_json_partial h
  exact ⟨j, h1, h2⟩

/-- C39, through XML. -/
theorem C39_xml_partial (h : Bom.XmlOk v b) :
    ∃ ns w, b.outputXml v = .ok (ns, w) ∧ Bom.parseXmlWith v (document ns w) = .ok (b.at v) :=
  C41_xml_partial h

/-- C39: for all documents, the step to the file loses nothing but what the version lacks and what is
not kept by the format: writing after reducing the document to the version gives the same. -/
theorem C39_written_partial : (b.at v).outputJson v = b.outputJson v ∧
    (b.at v).outputXml v = b.outputXml v :=
  C60_only_what_the_version_has (Bom.at_at v b)

end

end Cdx.Props
