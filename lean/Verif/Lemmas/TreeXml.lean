import Verif.Spec.TreeXml
import Verif.Spec.Format.Bom
import Verif.Model.Format.Bom

/-!
# XML is written from the tree of fields (C90)
-/

set_option linter.unusedSectionVars false
set_option linter.unusedSimpArgs false
set_option linter.unusedVariables false

namespace Cdx

open Spec (Tree Form xml xmlItems xmlField layout)

namespace Spec

/-- The first value under a name. -/
def pick (f : String) : List (String × Option Tree) → Option Tree
  | [] => none
  | (k, o) :: l => if k = f then o.or (pick f l) else pick f l

variable [F32Format]

/-- What is written for a field. -/
def xmlOpt : Option Tree → Form → List WEvent
  | some t, form => xml t form
  | none, .always tag => [.start tag [], .chars "", .stop]
  | none, _ => []

/-- The fields that have a value. -/
def givenFields (l : List (String × Option Tree)) : List (String × Tree) := l.filterMap fun p => p.2.map fun t => (p.1, t)

theorem given_none (k : String) (l : List (String × Option Tree)) : givenFields ((k, none) :: l) = givenFields l := rfl
theorem given_some (k : String) (t : Tree) (l : List (String × Option Tree)) :
    givenFields ((k, some t) :: l) = (k, t) :: givenFields l := rfl

theorem xmlField_eq (f : String) (form : Form) (l : List (String × Option Tree)) :
    xmlField (givenFields l) f form = xmlOpt (pick f l) form := by
  induction l with
  | nil => cases form <;> rfl
  | cons p l ih =>
    obtain ⟨k, o⟩ := p
    cases o with
    | none =>
      rw [given_none, ih, pick]
      split <;> rfl
    | some t =>
      rw [given_some, xmlField, pick, ih]
      split <;> rfl

theorem lookup_eq (f : String) (l : List (String × Option Tree)) : (givenFields l).lookup f = pick f l := by
  induction l with
  | nil => rfl
  | cons p l ih =>
    obtain ⟨k, o⟩ := p
    cases o with
    | none =>
      rw [given_none, ih, pick]
      split <;> rfl
    | some t =>
      rw [given_some, List.lookup_cons, pick, ih]
      by_cases h : k = f
      · rw [if_pos h, h, beq_self_eq_true f]
        rfl
      · rw [if_neg h, beq_false_of_ne (Ne.symm h)]

/-- An attribute and its value. -/
def attr (l : List (String × Option Tree)) (p : String × Form) : Option (String × Option String) :=
  match p.2 with
  | .attribute name => some (name, (pick p.1 l).bind Tree.asText)
  | _ => none

theorem attributes_eq (slots : List (String × Form)) (l : List (String × Option Tree)) :
    attributes slots (givenFields l) = mkAttrs (slots.filterMap (attr l)) := by
  unfold attributes mkAttrs
  rw [List.filterMap_filterMap]
  congr 1
  funext p
  obtain ⟨f, form⟩ := p
  cases form <;> try rfl
  show (((givenFields l).lookup f).bind Tree.asText).map _ = _
  rw [lookup_eq]
  rfl

theorem xml_mk (type tag : String) (l : List (String × Option Tree)) :
    xml (.mk type l) (.child tag) = writeElem tag (mkAttrs ((layout type).filterMap (attr l)))
      ((layout type).flatMap fun s => xmlOpt (pick s.1 l) s.2) := by
  show xml (.record type (givenFields l)) _ = _
  rw [xml, attributes_eq]
  simp only [xmlField_eq]
  rfl

theorem xml_mk_if (type tag : String) (names : List String) (l : List (String × Option Tree)) :
    xml (.mk type l) (.childIf names tag) =
      if (l.any fun p => p.2.isSome && names.contains p.1) then xml (.mk type l) (.child tag) else [] := by
  have h : ((givenFields l).any fun p => names.contains p.1) = l.any fun p => p.2.isSome && names.contains p.1 := by
    induction l with
    | nil => rfl
    | cons p l ih =>
      obtain ⟨k, o⟩ := p
      cases o with
      | none => rw [given_none, ih, List.any_cons]; rfl
      | some t => rw [given_some, List.any_cons, ih, List.any_cons]; rfl
  show xml (.record type (givenFields l)) _ = _
  rw [xml]
  show (if ((givenFields l).any fun p => names.contains p.1) = true then _ else _) = _
  rw [h]
  show _ = if _ then xml (.record type (givenFields l)) _ else _
  simp only [xml]

theorem xmlItems_eq (l : List Tree) (form : Form) : xmlItems l form = l.flatMap fun t => xml t form := by
  induction l with
  | nil => rfl
  | cons t l ih => rw [xmlItems, ih]; rfl

theorem xml_list {α : Type} (f : α → Tree) (l : List α) (tag : String) (item : Form) :
    xml (.list f l) (.list tag item) = writeList tag (fun x => xml (f x) item) l := by
  rw [Tree.list, xml, xmlItems_eq, List.flatMap_map]
  rfl

theorem xml_each {α : Type} (f : α → Tree) (l : List α) (item : Form) :
    xml (.list f l) (.each item) = l.flatMap fun x => xml (f x) item := by
  rw [Tree.list, xml, xmlItems_eq, List.flatMap_map]

theorem xml_text (s tag : String) : xml (.text s) (.child tag) = writeSimple tag s := by rw [xml]; rfl
theorem xml_name {α : Type} (d : α → String) (x : α) (tag : String) :
    xml (.name d x) (.child tag) = writeSimple tag (d x) := by rw [Tree.name, xml]; rfl
theorem xml_number (n : Nat) (tag : String) : xml (.number n) (.child tag) = writeSimple tag (showNat n) := by rw [xml]; rfl
theorem xml_truth (b : Bool) (tag : String) : xml (.truth b) (.child tag) = writeSimple tag (boolStr b) := by rw [xml]; rfl
theorem xml_decimal (x : F32) (tag : String) : xml (.decimal x) (.child tag) = writeSimple tag (F32Format.display x) := by
  rw [xml]; rfl
theorem xml_ref (s tag : String) : xml (.text s) (.ref tag) = writeRef tag s := by rw [xml]; rfl
theorem xml_content (s : String) : xml (.text s) .content = [.chars s] := by rw [xml]; rfl
theorem xml_cdata (s : String) : xml (.text s) .cdata = [.cdata s] := by rw [xml]; rfl
theorem xml_text_attr (s n : String) : xml (.text s) (.attribute n) = [] := by rw [xml]; rfl
theorem xml_name_attr {α : Type} (d : α → String) (x : α) (n : String) : xml (.name d x) (.attribute n) = [] := by
  rw [Tree.name, xml]; rfl
theorem xml_number_attr (k : Nat) (n : String) : xml (.number k) (.attribute n) = [] := by rw [xml]; rfl
theorem xml_truth_attr (b : Bool) (n : String) : xml (.truth b) (.attribute n) = [] := by rw [xml]; rfl

theorem opt_some (t : Tree) (form : Form) : xmlOpt (some t) form = xml t form := by cases form <;> rfl
theorem opt_child {α : Type} (f : α → Tree) (o : Option α) (tag : String) :
    xmlOpt (o.map f) (.child tag) = writeOpt (fun x => xml (f x) (.child tag)) o := by cases o <;> rfl
theorem opt_childIf {α : Type} (f : α → Tree) (o : Option α) (l : List String) (tag : String) :
    xmlOpt (o.map f) (.childIf l tag) = writeOpt (fun x => xml (f x) (.childIf l tag)) o := by cases o <;> rfl
theorem opt_list {α : Type} (f : α → Tree) (o : Option α) (i : Form) (tag : String) :
    xmlOpt (o.map f) (.list tag i) = writeOpt (fun x => xml (f x) (.list tag i)) o := by cases o <;> rfl
theorem opt_each {α : Type} (f : α → Tree) (o : Option α) (i : Form) :
    xmlOpt (o.map f) (.each i) = writeOpt (fun x => xml (f x) (.each i)) o := by cases o <;> rfl
theorem opt_attr {α : Type} (f : α → Tree) (o : Option α) (n : String) :
    xmlOpt (o.map f) (.attribute n) = writeOpt (fun x => xml (f x) (.attribute n)) o := by cases o <;> rfl
theorem opt_always (o : Option String) (tag : String) :
    xmlOpt (o.map .text) (.always tag) = writeSimple tag (o.getD "") := by
  cases o with
  | none => rfl
  | some s => show xml (.text s) (.always tag) = _; rw [xml]; rfl
theorem opt_none_child (tag : String) : xmlOpt none (.child tag) = [] := rfl
theorem opt_none_list (tag : String) (i : Form) : xmlOpt none (.list tag i) = [] := rfl
theorem opt_none_each (i : Form) : xmlOpt none (.each i) = [] := rfl
theorem opt_none_attr (n : String) : xmlOpt none (.attribute n) = [] := rfl

theorem writeOpt_nil {α : Type} (o : Option α) : writeOpt (fun _ => []) o = [] := by cases o <;> rfl
theorem writeList_map {α β : Type} (tag : String) (w : β → List WEvent) (f : α → β) (l : List α) :
    writeList tag w (l.map f) = writeList tag (fun x => w (f x)) l := by
  unfold writeList
  rw [List.flatMap_map]
theorem writeOpt_none {α : Type} (w : α → List WEvent) : writeOpt w none = [] := rfl

theorem asText_text (s : String) : Tree.asText (.text s) = some s := rfl
theorem asText_name {α : Type} (d : α → String) (x : α) : Tree.asText (.name d x) = some (d x) := rfl
theorem asText_number (n : Nat) : Tree.asText (.number n) = some (showNat n) := rfl
theorem asText_truth (b : Bool) : Tree.asText (.truth b) = some (boolStr b) := rfl

theorem bind_text (o : Option String) : (o.map Tree.text).bind Tree.asText = o := by cases o <;> rfl
theorem bind_name {α : Type} (d : α → String) (o : Option α) : (o.map (Tree.name d)).bind Tree.asText = o.map d := by
  cases o <;> rfl
theorem bind_number (o : Option Nat) : (o.map Tree.number).bind Tree.asText = o.map showNat := by cases o <;> rfl
theorem bind_truth (o : Option Bool) : (o.map Tree.truth).bind Tree.asText = o.map boolStr := by cases o <;> rfl

theorem mkAttrs_nil : mkAttrs [] = [] := rfl

/-- The value at a position. -/
def nth : List (Option Tree) → Option Nat → Option Tree
  | _, none => none
  | [], _ => none
  | o :: _, some 0 => o
  | _ :: l, some (n + 1) => nth l (some n)

theorem pick_none (f : String) (names : List String) (vals : List (Option Tree)) (h : f ∉ names) :
    pick f (names.zip vals) = none := by
  induction names generalizing vals with
  | nil => rfl
  | cons k names ih =>
    cases vals with
    | nil => rfl
    | cons o vals =>
      rw [List.zip_cons_cons, pick, if_neg (fun e : k = f => h (by rw [e]; exact List.mem_cons_self)), ih _ fun m => h (List.mem_cons_of_mem _ m)]

theorem pick_zip (f : String) (names : List String) (vals : List (Option Tree)) (h : names.Nodup) :
    pick f (names.zip vals) = nth vals (names.idxOf? f) := by
  induction names generalizing vals with
  | nil => cases vals <;> rfl
  | cons k names ih =>
    obtain ⟨h1, h2⟩ := List.nodup_cons.1 h
    cases vals with
    | nil =>
      show none = _
      cases (k :: names).idxOf? f <;> rfl
    | cons o vals =>
      rw [List.zip_cons_cons, pick, List.idxOf?_cons]
      by_cases e : k = f
      · subst e
        rw [if_pos rfl, beq_self_eq_true, pick_none _ _ _ h1, Option.or_none]
        rfl
      · rw [if_neg e, beq_false_of_ne e, ih _ h2]
        cases names.idxOf? f <;> cases vals <;> rfl

/-- An attribute and its value. -/
def attrAt (l : List (Option Tree)) (p : Option Nat × Form) : Option (String × Option String) :=
  match p.2 with
  | .attribute name => some (name, (nth l p.1).bind Tree.asText)
  | _ => none

theorem xml_at {type : String} {names : List String} {slots : List (Option Nat × Form)} (hn : names.Nodup)
    (hs : (layout type).map (fun s => (names.idxOf? s.1, s.2)) = slots) (tag : String) (vals : List (Option Tree)) :
    xml (.mk type (names.zip vals)) (.child tag) = writeElem tag (mkAttrs (slots.filterMap (attrAt vals)))
      (slots.flatMap fun s => xmlOpt (nth vals s.1) s.2) := by
  rw [xml_mk, ← hs, List.flatMap_map, List.filterMap_map]
  simp only [pick_zip _ _ _ hn]
  congr 2
  congr 1
  funext p
  obtain ⟨f, form⟩ := p
  cases form <;> try rfl
  show some (_, (pick f (names.zip vals)).bind _) = _
  rw [pick_zip _ _ _ hn]
  rfl

theorem xml_choice {type variant : String} (h : variants.lookup (type, variant) = none) (t : Tree) (form : Form) :
    xml (.choice type variant t) form = xml t form := by rw [xml, h]

theorem xml_named {type variant tag : String} (h : variants.lookup (type, variant) = some (.named tag)) (t : Tree)
    (form : Form) : xml (.choice type variant t) form = xml t (.child tag) := by rw [xml, h]

theorem xml_inside {type variant : String} {inner : Form} (h : variants.lookup (type, variant) = some (.inside inner))
    (t : Tree) (tag : String) : xml (.choice type variant t) (.child tag) = writeElem tag [] (xml t inner) := by
  rw [xml, h]
  rfl

end Spec

open Spec

/-- The rules for single values. -/
macro "xml_simp" "[" ls:Lean.Parser.Tactic.simpLemma,* "]" : tactic =>
  `(tactic| simp only [xml_list, xml_each, xml_text, xml_name, xml_number, xml_truth, xml_decimal, xml_ref,
      xml_content, xml_cdata, xml_text_attr, xml_name_attr, xml_number_attr, xml_truth_attr, opt_some, opt_child,
      opt_childIf, opt_list, opt_each, opt_attr, opt_always, opt_none_child, opt_none_list, opt_none_each, opt_none_attr,
      writeOpt_nil, asText_text, asText_name, asText_number, asText_truth, bind_text, bind_name, bind_number, bind_truth,
      Option.bind_some, Option.bind_none, Option.map_some, Option.map_none, Option.map_map, if_true, if_false,
      List.append_nil, List.nil_append, List.append_assoc, since14, since15, Function.comp_def, mkAttrs_nil, List.map_map,
      List.flatMap_map, writeList_map, List.map_cons, List.map_nil,
      $ls,*])

variable [F32Format]

theorem AttachedText.fields (tag : String) (a0 a1 a2 : Option Tree) : xml (.mk "AttachedText" [("contentType", a0), ("encoding", a1), ("content", a2)]) (.child tag) =
    writeElem tag (mkAttrs [("content-type", a0.bind Tree.asText), ("encoding", a1.bind Tree.asText)]) (
      xmlOpt a0 (.attribute "content-type") ++ (xmlOpt a1 (.attribute "encoding") ++ (xmlOpt a2 (.content) ++ []))) :=
  xml_at (names := ["contentType", "encoding", "content"]) (slots := [(some 0, .attribute "content-type"), (some 1, .attribute "encoding"), (some 2, .content)]) (by decide +kernel) (by decide +kernel) tag [a0, a1, a2]

theorem Property.fields (tag : String) (a0 a1 : Option Tree) : xml (.mk "Property" [("name", a0), ("value", a1)]) (.child tag) =
    writeElem tag (mkAttrs [("name", a0.bind Tree.asText)]) (
      xmlOpt a0 (.attribute "name") ++ (xmlOpt a1 (.content) ++ [])) :=
  xml_at (names := ["name", "value"]) (slots := [(some 0, .attribute "name"), (some 1, .content)]) (by decide +kernel) (by decide +kernel) tag [a0, a1]

theorem Hash.fields (tag : String) (a0 a1 : Option Tree) : xml (.mk "Hash" [("alg", a0), ("content", a1)]) (.child tag) =
    writeElem tag (mkAttrs [("alg", a0.bind Tree.asText)]) (
      xmlOpt a0 (.attribute "alg") ++ (xmlOpt a1 (.content) ++ [])) :=
  xml_at (names := ["alg", "content"]) (slots := [(some 0, .attribute "alg"), (some 1, .content)]) (by decide +kernel) (by decide +kernel) tag [a0, a1]

theorem OrganizationalContact.fields (tag : String) (a0 a1 a2 a3 : Option Tree) : xml (.mk "OrganizationalContact" [("bomRef", a0), ("name", a1), ("email", a2), ("phone", a3)]) (.child tag) =
    writeElem tag (mkAttrs [("bom-ref", a0.bind Tree.asText)]) (
      xmlOpt a0 (.attribute "bom-ref") ++ (xmlOpt a1 (.child "name") ++ (xmlOpt a2 (.child "email") ++ (xmlOpt a3 (.child "phone") ++ [])))) :=
  xml_at (names := ["bomRef", "name", "email", "phone"]) (slots := [(some 0, .attribute "bom-ref"), (some 1, .child "name"), (some 2, .child "email"), (some 3, .child "phone")]) (by decide +kernel) (by decide +kernel) tag [a0, a1, a2, a3]

theorem OrganizationalEntity.fields (tag : String) (a0 a1 a2 a3 : Option Tree) : xml (.mk "OrganizationalEntity" [("bomRef", a0), ("name", a1), ("url", a2), ("contact", a3)]) (.child tag) =
    writeElem tag (mkAttrs [("bom-ref", a0.bind Tree.asText)]) (
      xmlOpt a0 (.attribute "bom-ref") ++ (xmlOpt a1 (.child "name") ++ (xmlOpt a2 (.each (.child "url")) ++ (xmlOpt a3 (.each (.childIf ["name", "email", "phone"] "contact")) ++ [])))) :=
  xml_at (names := ["bomRef", "name", "url", "contact"]) (slots := [(some 0, .attribute "bom-ref"), (some 1, .child "name"), (some 2, .each (.child "url")), (some 3, .each (.childIf ["name", "email", "phone"] "contact"))]) (by decide +kernel) (by decide +kernel) tag [a0, a1, a2, a3]

theorem ExternalReference.fields (tag : String) (a0 a1 a2 a3 : Option Tree) : xml (.mk "ExternalReference" [("externalReferenceType", a0), ("url", a1), ("comment", a2), ("hashes", a3)]) (.child tag) =
    writeElem tag (mkAttrs [("type", a0.bind Tree.asText)]) (
      xmlOpt a0 (.attribute "type") ++ (xmlOpt a1 (.child "url") ++ (xmlOpt a2 (.child "comment") ++ (xmlOpt a3 (.list "hashes" (.child "hash")) ++ [])))) :=
  xml_at (names := ["externalReferenceType", "url", "comment", "hashes"]) (slots := [(some 0, .attribute "type"), (some 1, .child "url"), (some 2, .child "comment"), (some 3, .list "hashes" (.child "hash"))]) (by decide +kernel) (by decide +kernel) tag [a0, a1, a2, a3]

theorem VulnerabilitySource.fields (tag : String) (a0 a1 : Option Tree) : xml (.mk "VulnerabilitySource" [("name", a0), ("url", a1)]) (.child tag) =
    writeElem tag (mkAttrs []) (
      xmlOpt a0 (.child "name") ++ (xmlOpt a1 (.child "url") ++ [])) :=
  xml_at (names := ["name", "url"]) (slots := [(some 0, .child "name"), (some 1, .child "url")]) (by decide +kernel) (by decide +kernel) tag [a0, a1]

theorem VulnerabilityReference.fields (tag : String) (a0 a1 : Option Tree) : xml (.mk "VulnerabilityReference" [("id", a0), ("vulnerabilitySource", a1)]) (.child tag) =
    writeElem tag (mkAttrs []) (
      xmlOpt a0 (.child "id") ++ (xmlOpt a1 (.child "source") ++ [])) :=
  xml_at (names := ["id", "vulnerabilitySource"]) (slots := [(some 0, .child "id"), (some 1, .child "source")]) (by decide +kernel) (by decide +kernel) tag [a0, a1]

theorem Advisory.fields (tag : String) (a0 a1 : Option Tree) : xml (.mk "Advisory" [("title", a0), ("url", a1)]) (.child tag) =
    writeElem tag (mkAttrs []) (
      xmlOpt a0 (.child "title") ++ (xmlOpt a1 (.child "url") ++ [])) :=
  xml_at (names := ["title", "url"]) (slots := [(some 0, .child "title"), (some 1, .child "url")]) (by decide +kernel) (by decide +kernel) tag [a0, a1]

theorem VulnerabilityCredits.fields (tag : String) (a0 a1 : Option Tree) : xml (.mk "VulnerabilityCredits" [("organizations", a0), ("individuals", a1)]) (.child tag) =
    writeElem tag (mkAttrs []) (
      xmlOpt a0 (.list "organizations" (.childIf ["name", "url", "contact"] "organization")) ++ (xmlOpt a1 (.list "individuals" (.childIf ["name", "email", "phone"] "individual")) ++ [])) :=
  xml_at (names := ["organizations", "individuals"]) (slots := [(some 0, .list "organizations" (.childIf ["name", "url", "contact"] "organization")), (some 1, .list "individuals" (.childIf ["name", "email", "phone"] "individual"))]) (by decide +kernel) (by decide +kernel) tag [a0, a1]

theorem Signer.fields (tag : String) (a0 a1 : Option Tree) : xml (.mk "Signer" [("algorithm", a0), ("value", a1)]) (.child tag) =
    writeElem tag (mkAttrs []) (
      xmlOpt a0 (.child "algorithm") ++ (xmlOpt a1 (.child "value") ++ [])) :=
  xml_at (names := ["algorithm", "value"]) (slots := [(some 0, .child "algorithm"), (some 1, .child "value")]) (by decide +kernel) (by decide +kernel) tag [a0, a1]

theorem Dependency.fields (tag : String) (a0 a1 : Option Tree) : xml (.mk "Dependency" [("dependencyRef", a0), ("dependencies", a1)]) (.child tag) =
    writeElem tag (mkAttrs [("ref", a0.bind Tree.asText)]) (
      xmlOpt a0 (.attribute "ref") ++ (xmlOpt a1 (.each (.ref "dependency")) ++ [])) :=
  xml_at (names := ["dependencyRef", "dependencies"]) (slots := [(some 0, .attribute "ref"), (some 1, .each (.ref "dependency"))]) (by decide +kernel) (by decide +kernel) tag [a0, a1]

theorem Composition.fields (tag : String) (a0 a1 a2 a3 a4 a5 : Option Tree) : xml (.mk "Composition" [("aggregate", a0), ("assemblies", a1), ("dependencies", a2), ("signature", a3), ("bomRef", a4), ("vulnerabilities", a5)]) (.child tag) =
    writeElem tag (mkAttrs [("bom-ref", a4.bind Tree.asText)]) (
      xmlOpt a4 (.attribute "bom-ref") ++ (xmlOpt a0 (.child "aggregate") ++ (xmlOpt a1 (.list "assemblies" (.ref "assembly")) ++ (xmlOpt a2 (.list "dependencies" (.ref "dependency")) ++ (xmlOpt a5 (.list "vulnerabilities" (.ref "vulnerability")) ++ (xmlOpt a3 (.child "signature") ++ [])))))) :=
  xml_at (names := ["aggregate", "assemblies", "dependencies", "signature", "bomRef", "vulnerabilities"]) (slots := [(some 4, .attribute "bom-ref"), (some 0, .child "aggregate"), (some 1, .list "assemblies" (.ref "assembly")), (some 2, .list "dependencies" (.ref "dependency")), (some 5, .list "vulnerabilities" (.ref "vulnerability")), (some 3, .child "signature")]) (by decide +kernel) (by decide +kernel) tag [a0, a1, a2, a3, a4, a5]

theorem IdentifiableAction.fields (tag : String) (a0 a1 a2 : Option Tree) : xml (.mk "IdentifiableAction" [("timestamp", a0), ("name", a1), ("email", a2)]) (.child tag) =
    writeElem tag (mkAttrs []) (
      xmlOpt a0 (.child "timestamp") ++ (xmlOpt a1 (.child "name") ++ (xmlOpt a2 (.child "email") ++ []))) :=
  xml_at (names := ["timestamp", "name", "email"]) (slots := [(some 0, .child "timestamp"), (some 1, .child "name"), (some 2, .child "email")]) (by decide +kernel) (by decide +kernel) tag [a0, a1, a2]

theorem Commit.fields (tag : String) (a0 a1 a2 a3 a4 : Option Tree) : xml (.mk "Commit" [("uid", a0), ("url", a1), ("author", a2), ("committer", a3), ("message", a4)]) (.child tag) =
    writeElem tag (mkAttrs []) (
      xmlOpt a0 (.child "uid") ++ (xmlOpt a1 (.child "url") ++ (xmlOpt a2 (.child "author") ++ (xmlOpt a3 (.child "committer") ++ (xmlOpt a4 (.child "message") ++ []))))) :=
  xml_at (names := ["uid", "url", "author", "committer", "message"]) (slots := [(some 0, .child "uid"), (some 1, .child "url"), (some 2, .child "author"), (some 3, .child "committer"), (some 4, .child "message")]) (by decide +kernel) (by decide +kernel) tag [a0, a1, a2, a3, a4]

theorem Diff.fields (tag : String) (a0 a1 : Option Tree) : xml (.mk "Diff" [("text", a0), ("url", a1)]) (.child tag) =
    writeElem tag (mkAttrs []) (
      xmlOpt a0 (.child "text") ++ (xmlOpt a1 (.child "url") ++ [])) :=
  xml_at (names := ["text", "url"]) (slots := [(some 0, .child "text"), (some 1, .child "url")]) (by decide +kernel) (by decide +kernel) tag [a0, a1]

theorem Source.fields (tag : String) (a0 a1 : Option Tree) : xml (.mk "Source" [("name", a0), ("url", a1)]) (.child tag) =
    writeElem tag (mkAttrs []) (
      xmlOpt a0 (.child "name") ++ (xmlOpt a1 (.child "url") ++ [])) :=
  xml_at (names := ["name", "url"]) (slots := [(some 0, .child "name"), (some 1, .child "url")]) (by decide +kernel) (by decide +kernel) tag [a0, a1]

theorem Issue.fields (tag : String) (a0 a1 a2 a3 a4 a5 : Option Tree) : xml (.mk "Issue" [("issueType", a0), ("id", a1), ("name", a2), ("description", a3), ("source", a4), ("references", a5)]) (.child tag) =
    writeElem tag (mkAttrs [("type", a0.bind Tree.asText)]) (
      xmlOpt a0 (.attribute "type") ++ (xmlOpt a1 (.child "id") ++ (xmlOpt a2 (.child "name") ++ (xmlOpt a3 (.child "description") ++ (xmlOpt a4 (.childIf ["name", "url"] "source") ++ (xmlOpt a5 (.list "references" (.child "url")) ++ [])))))) :=
  xml_at (names := ["issueType", "id", "name", "description", "source", "references"]) (slots := [(some 0, .attribute "type"), (some 1, .child "id"), (some 2, .child "name"), (some 3, .child "description"), (some 4, .childIf ["name", "url"] "source"), (some 5, .list "references" (.child "url"))]) (by decide +kernel) (by decide +kernel) tag [a0, a1, a2, a3, a4, a5]

theorem Patch.fields (tag : String) (a0 a1 a2 : Option Tree) : xml (.mk "Patch" [("patchType", a0), ("diff", a1), ("resolves", a2)]) (.child tag) =
    writeElem tag (mkAttrs [("type", a0.bind Tree.asText)]) (
      xmlOpt a0 (.attribute "type") ++ (xmlOpt a1 (.childIf ["text", "url"] "diff") ++ (xmlOpt a2 (.list "resolves" (.child "issue")) ++ []))) :=
  xml_at (names := ["patchType", "diff", "resolves"]) (slots := [(some 0, .attribute "type"), (some 1, .childIf ["text", "url"] "diff"), (some 2, .list "resolves" (.child "issue"))]) (by decide +kernel) (by decide +kernel) tag [a0, a1, a2]

theorem VulnerabilityAnalysis.fields (tag : String) (a0 a1 a2 a3 a4 a5 : Option Tree) : xml (.mk "VulnerabilityAnalysis" [("state", a0), ("justification", a1), ("responses", a2), ("detail", a3), ("firstIssued", a4), ("lastUpdated", a5)]) (.child tag) =
    writeElem tag (mkAttrs []) (
      xmlOpt a0 (.child "state") ++ (xmlOpt a1 (.child "justification") ++ (xmlOpt a2 (.list "responses" (.child "response")) ++ (xmlOpt a3 (.child "detail") ++ (xmlOpt a4 (.child "firstIssued") ++ (xmlOpt a5 (.child "lastUpdated") ++ [])))))) :=
  xml_at (names := ["state", "justification", "responses", "detail", "firstIssued", "lastUpdated"]) (slots := [(some 0, .child "state"), (some 1, .child "justification"), (some 2, .list "responses" (.child "response")), (some 3, .child "detail"), (some 4, .child "firstIssued"), (some 5, .child "lastUpdated")]) (by decide +kernel) (by decide +kernel) tag [a0, a1, a2, a3, a4, a5]

theorem TargetVersion.fields_version (tag : String) (a0 a1 : Option Tree) : xml (.mk "TargetVersion" [("version", a0), ("status", a1)]) (.child tag) =
    writeElem tag (mkAttrs []) (
      xmlOpt a0 (.child "version") ++ (xmlOpt none (.child "range") ++ (xmlOpt a1 (.child "status") ++ []))) :=
  xml_at (names := ["version", "status"]) (slots := [(some 0, .child "version"), (none, .child "range"), (some 1, .child "status")]) (by decide +kernel) (by decide +kernel) tag [a0, a1]

theorem TargetVersion.fields_range (tag : String) (a0 a1 : Option Tree) : xml (.mk "TargetVersion" [("range", a0), ("status", a1)]) (.child tag) =
    writeElem tag (mkAttrs []) (
      xmlOpt none (.child "version") ++ (xmlOpt a0 (.child "range") ++ (xmlOpt a1 (.child "status") ++ []))) :=
  xml_at (names := ["range", "status"]) (slots := [(none, .child "version"), (some 0, .child "range"), (some 1, .child "status")]) (by decide +kernel) (by decide +kernel) tag [a0, a1]

theorem TargetVersion.fields_undefinedVersionRange (tag : String) (a0 a1 : Option Tree) : xml (.mk "TargetVersion" [("undefinedVersionRange", a0), ("status", a1)]) (.child tag) =
    writeElem tag (mkAttrs []) (
      xmlOpt none (.child "version") ++ (xmlOpt none (.child "range") ++ (xmlOpt a1 (.child "status") ++ []))) :=
  xml_at (names := ["undefinedVersionRange", "status"]) (slots := [(none, .child "version"), (none, .child "range"), (some 1, .child "status")]) (by decide +kernel) (by decide +kernel) tag [a0, a1]

theorem VulnerabilityTarget.fields (tag : String) (a0 a1 : Option Tree) : xml (.mk "VulnerabilityTarget" [("bomRef", a0), ("versions", a1)]) (.child tag) =
    writeElem tag (mkAttrs []) (
      xmlOpt a0 (.child "ref") ++ (xmlOpt a1 (.list "versions" (.child "version")) ++ [])) :=
  xml_at (names := ["bomRef", "versions"]) (slots := [(some 0, .child "ref"), (some 1, .list "versions" (.child "version"))]) (by decide +kernel) (by decide +kernel) tag [a0, a1]

theorem License.fields_spdxId (tag : String) (a0 a1 a2 a3 a4 a5 : Option Tree) : xml (.mk "License" [("spdxId", a0), ("text", a1), ("url", a2), ("bomRef", a3), ("licensing", a4), ("properties", a5)]) (.child tag) =
    writeElem tag (mkAttrs [("bom-ref", a3.bind Tree.asText)]) (
      xmlOpt a3 (.attribute "bom-ref") ++ (xmlOpt a0 (.child "id") ++ (xmlOpt none (.child "name") ++ (xmlOpt a1 (.child "text") ++ (xmlOpt a2 (.child "url") ++ (xmlOpt a5 (.list "properties" (.child "property")) ++ [])))))) :=
  xml_at (names := ["spdxId", "text", "url", "bomRef", "licensing", "properties"]) (slots := [(some 3, .attribute "bom-ref"), (some 0, .child "id"), (none, .child "name"), (some 1, .child "text"), (some 2, .child "url"), (some 5, .list "properties" (.child "property"))]) (by decide +kernel) (by decide +kernel) tag [a0, a1, a2, a3, a4, a5]

theorem License.fields_name (tag : String) (a0 a1 a2 a3 a4 a5 : Option Tree) : xml (.mk "License" [("name", a0), ("text", a1), ("url", a2), ("bomRef", a3), ("licensing", a4), ("properties", a5)]) (.child tag) =
    writeElem tag (mkAttrs [("bom-ref", a3.bind Tree.asText)]) (
      xmlOpt a3 (.attribute "bom-ref") ++ (xmlOpt none (.child "id") ++ (xmlOpt a0 (.child "name") ++ (xmlOpt a1 (.child "text") ++ (xmlOpt a2 (.child "url") ++ (xmlOpt a5 (.list "properties" (.child "property")) ++ [])))))) :=
  xml_at (names := ["name", "text", "url", "bomRef", "licensing", "properties"]) (slots := [(some 3, .attribute "bom-ref"), (none, .child "id"), (some 0, .child "name"), (some 1, .child "text"), (some 2, .child "url"), (some 5, .list "properties" (.child "property"))]) (by decide +kernel) (by decide +kernel) tag [a0, a1, a2, a3, a4, a5]

theorem SpdxExpression.fields (tag : String) (a0 a1 : Option Tree) : xml (.mk "SpdxExpression" [("bomRef", a0), ("expression", a1)]) (.child tag) =
    writeElem tag (mkAttrs [("bom-ref", a0.bind Tree.asText)]) (
      xmlOpt a0 (.attribute "bom-ref") ++ (xmlOpt a1 (.content) ++ [])) :=
  xml_at (names := ["bomRef", "expression"]) (slots := [(some 0, .attribute "bom-ref"), (some 1, .content)]) (by decide +kernel) (by decide +kernel) tag [a0, a1]

theorem VulnerabilityRating.fields (tag : String) (a0 a1 a2 a3 a4 a5 : Option Tree) : xml (.mk "VulnerabilityRating" [("vulnerabilitySource", a0), ("score", a1), ("severity", a2), ("scoreMethod", a3), ("vector", a4), ("justification", a5)]) (.child tag) =
    writeElem tag (mkAttrs []) (
      xmlOpt a0 (.child "source") ++ (xmlOpt a1 (.child "score") ++ (xmlOpt a2 (.child "severity") ++ (xmlOpt a3 (.child "method") ++ (xmlOpt a4 (.child "vector") ++ (xmlOpt a5 (.child "justification") ++ [])))))) :=
  xml_at (names := ["vulnerabilitySource", "score", "severity", "scoreMethod", "vector", "justification"]) (slots := [(some 0, .child "source"), (some 1, .child "score"), (some 2, .child "severity"), (some 3, .child "method"), (some 4, .child "vector"), (some 5, .child "justification")]) (by decide +kernel) (by decide +kernel) tag [a0, a1, a2, a3, a4, a5]

theorem ComponentEvidence.fields (tag : String) (a0 a1 a2 a3 a4 : Option Tree) : xml (.mk "ComponentEvidence" [("licenses", a0), ("copyright", a1), ("occurrences", a2), ("callstack", a3), ("identity", a4)]) (.child tag) =
    writeElem tag (mkAttrs []) (
      xmlOpt a0 (.list "licenses" (.child "license")) ++ (xmlOpt a1 (.list "copyright" (.child "text")) ++ [])) :=
  xml_at (names := ["licenses", "copyright", "occurrences", "callstack", "identity"]) (slots := [(some 0, .list "licenses" (.child "license")), (some 1, .list "copyright" (.child "text"))]) (by decide +kernel) (by decide +kernel) tag [a0, a1, a2, a3, a4]

theorem DataGovernance.fields (tag : String) (a0 a1 a2 : Option Tree) : xml (.mk "DataGovernance" [("custodians", a0), ("stewards", a1), ("owners", a2)]) (.child tag) =
    writeElem tag (mkAttrs []) (
      xmlOpt a2 (.list "owners" (.child "owner")) ++ (xmlOpt a0 (.list "custodians" (.child "custodian")) ++ (xmlOpt a1 (.list "stewards" (.child "steward")) ++ []))) :=
  xml_at (names := ["custodians", "stewards", "owners"]) (slots := [(some 2, .list "owners" (.child "owner")), (some 0, .list "custodians" (.child "custodian")), (some 1, .list "stewards" (.child "steward"))]) (by decide +kernel) (by decide +kernel) tag [a0, a1, a2]

theorem Attachment.fields (tag : String) (a0 a1 a2 : Option Tree) : xml (.mk "Attachment" [("content", a0), ("contentType", a1), ("encoding", a2)]) (.child tag) =
    writeElem tag (mkAttrs [("encoding", a2.bind Tree.asText), ("encoding", a1.bind Tree.asText)]) (
      xmlOpt a2 (.attribute "encoding") ++ (xmlOpt a1 (.attribute "encoding") ++ (xmlOpt a0 (.content) ++ []))) :=
  xml_at (names := ["content", "contentType", "encoding"]) (slots := [(some 2, .attribute "encoding"), (some 1, .attribute "encoding"), (some 0, .content)]) (by decide +kernel) (by decide +kernel) tag [a0, a1, a2]

theorem Graphic.fields (tag : String) (a0 a1 : Option Tree) : xml (.mk "Graphic" [("name", a0), ("image", a1)]) (.child tag) =
    writeElem tag (mkAttrs []) (
      xmlOpt a0 (.child "name") ++ (xmlOpt a1 (.child "image") ++ [])) :=
  xml_at (names := ["name", "image"]) (slots := [(some 0, .child "name"), (some 1, .child "image")]) (by decide +kernel) (by decide +kernel) tag [a0, a1]

theorem GraphicsCollection.fields (tag : String) (a0 a1 : Option Tree) : xml (.mk "GraphicsCollection" [("description", a0), ("collection", a1)]) (.child tag) =
    writeElem tag (mkAttrs []) (
      xmlOpt a0 (.child "description") ++ (xmlOpt a1 (.list "collection" (.child "graphic")) ++ [])) :=
  xml_at (names := ["description", "collection"]) (slots := [(some 0, .child "description"), (some 1, .list "collection" (.child "graphic"))]) (by decide +kernel) (by decide +kernel) tag [a0, a1]

theorem DataContents.fields (tag : String) (a0 a1 a2 : Option Tree) : xml (.mk "DataContents" [("attachment", a0), ("url", a1), ("properties", a2)]) (.child tag) =
    writeElem tag (mkAttrs []) (
      xmlOpt a0 (.child "attachment") ++ (xmlOpt a1 (.child "url") ++ (xmlOpt a2 (.list "properties" (.child "property")) ++ []))) :=
  xml_at (names := ["attachment", "url", "properties"]) (slots := [(some 0, .child "attachment"), (some 1, .child "url"), (some 2, .list "properties" (.child "property"))]) (by decide +kernel) (by decide +kernel) tag [a0, a1, a2]

theorem ComponentData.fields (tag : String) (a0 a1 a2 a3 a4 a5 a6 a7 a8 : Option Tree) : xml (.mk "ComponentData" [("bomRef", a0), ("dataType", a1), ("name", a2), ("contents", a3), ("classification", a4), ("sensitiveData", a5), ("graphics", a6), ("description", a7), ("governance", a8)]) (.child tag) =
    writeElem tag (mkAttrs [("bom-ref", a0.bind Tree.asText)]) (
      xmlOpt a0 (.attribute "bom-ref") ++ (xmlOpt a1 (.child "type") ++ (xmlOpt a2 (.child "name") ++ (xmlOpt a3 (.child "contents") ++ (xmlOpt a4 (.child "classification") ++ (xmlOpt a5 (.child "sensitiveData") ++ (xmlOpt a6 (.child "graphics") ++ (xmlOpt a7 (.child "description") ++ (xmlOpt a8 (.child "governance") ++ []))))))))) :=
  xml_at (names := ["bomRef", "dataType", "name", "contents", "classification", "sensitiveData", "graphics", "description", "governance"]) (slots := [(some 0, .attribute "bom-ref"), (some 1, .child "type"), (some 2, .child "name"), (some 3, .child "contents"), (some 4, .child "classification"), (some 5, .child "sensitiveData"), (some 6, .child "graphics"), (some 7, .child "description"), (some 8, .child "governance")]) (by decide +kernel) (by decide +kernel) tag [a0, a1, a2, a3, a4, a5, a6, a7, a8]

theorem ModelParametersApproach.fields (tag : String) (a0 : Option Tree) : xml (.mk "ModelParametersApproach" [("approachType", a0)]) (.child tag) =
    writeElem tag (mkAttrs []) (
      xmlOpt a0 (.child "type") ++ []) :=
  xml_at (names := ["approachType"]) (slots := [(some 0, .child "type")]) (by decide +kernel) (by decide +kernel) tag [a0]

theorem MLParameter.fields (tag : String) (a0 : Option Tree) : xml (.mk "MLParameter" [("format", a0)]) (.child tag) =
    writeElem tag (mkAttrs []) (
      xmlOpt a0 (.child "format") ++ []) :=
  xml_at (names := ["format"]) (slots := [(some 0, .child "format")]) (by decide +kernel) (by decide +kernel) tag [a0]

theorem ModelParameters.fields (tag : String) (a0 a1 a2 a3 a4 a5 a6 : Option Tree) : xml (.mk "ModelParameters" [("approach", a0), ("task", a1), ("architectureFamily", a2), ("modelArchitecture", a3), ("datasets", a4), ("inputs", a5), ("outputs", a6)]) (.child tag) =
    writeElem tag (mkAttrs []) (
      xmlOpt a0 (.child "approach") ++ (xmlOpt a1 (.child "task") ++ (xmlOpt a2 (.child "architectureFamily") ++ (xmlOpt a3 (.child "modelArchitecture") ++ (xmlOpt a4 (.list "datasets" (.child "dataset")) ++ (xmlOpt a5 (.list "inputs" (.child "input")) ++ (xmlOpt a6 (.list "outputs" (.child "output")) ++ []))))))) :=
  xml_at (names := ["approach", "task", "architectureFamily", "modelArchitecture", "datasets", "inputs", "outputs"]) (slots := [(some 0, .child "approach"), (some 1, .child "task"), (some 2, .child "architectureFamily"), (some 3, .child "modelArchitecture"), (some 4, .list "datasets" (.child "dataset")), (some 5, .list "inputs" (.child "input")), (some 6, .list "outputs" (.child "output"))]) (by decide +kernel) (by decide +kernel) tag [a0, a1, a2, a3, a4, a5, a6]

theorem ConfidenceInterval.fields (tag : String) (a0 a1 : Option Tree) : xml (.mk "ConfidenceInterval" [("lowerBound", a0), ("upperBound", a1)]) (.child tag) =
    writeElem tag (mkAttrs []) (
      xmlOpt a0 (.child "lowerBound") ++ (xmlOpt a1 (.child "upperBound") ++ [])) :=
  xml_at (names := ["lowerBound", "upperBound"]) (slots := [(some 0, .child "lowerBound"), (some 1, .child "upperBound")]) (by decide +kernel) (by decide +kernel) tag [a0, a1]

theorem PerformanceMetric.fields (tag : String) (a0 a1 a2 a3 : Option Tree) : xml (.mk "PerformanceMetric" [("metricType", a0), ("value", a1), ("slice", a2), ("confidenceInterval", a3)]) (.child tag) =
    writeElem tag (mkAttrs []) (
      xmlOpt a0 (.child "type") ++ (xmlOpt a1 (.child "value") ++ (xmlOpt a2 (.child "slice") ++ (xmlOpt a3 (.child "confidenceInterval") ++ [])))) :=
  xml_at (names := ["metricType", "value", "slice", "confidenceInterval"]) (slots := [(some 0, .child "type"), (some 1, .child "value"), (some 2, .child "slice"), (some 3, .child "confidenceInterval")]) (by decide +kernel) (by decide +kernel) tag [a0, a1, a2, a3]

theorem QuantitativeAnalysis.fields (tag : String) (a0 a1 : Option Tree) : xml (.mk "QuantitativeAnalysis" [("performanceMetrics", a0), ("graphics", a1)]) (.child tag) =
    writeElem tag (mkAttrs []) (
      xmlOpt a0 (.list "performanceMetrics" (.child "performanceMetric")) ++ (xmlOpt a1 (.child "graphics") ++ [])) :=
  xml_at (names := ["performanceMetrics", "graphics"]) (slots := [(some 0, .list "performanceMetrics" (.child "performanceMetric")), (some 1, .child "graphics")]) (by decide +kernel) (by decide +kernel) tag [a0, a1]

theorem Considerations.fields (tag : String) : xml (.mk "Considerations" []) (.child tag) =
    writeElem tag (mkAttrs []) (
      []) :=
  xml_at (names := []) (slots := []) (by decide +kernel) (by decide +kernel) tag []

theorem ModelCard.fields (tag : String) (a0 a1 a2 a3 a4 : Option Tree) : xml (.mk "ModelCard" [("bomRef", a0), ("modelParameters", a1), ("quantitativeAnalysis", a2), ("considerations", a3), ("properties", a4)]) (.child tag) =
    writeElem tag (mkAttrs [("bom-ref", a0.bind Tree.asText)]) (
      xmlOpt a0 (.attribute "bom-ref") ++ (xmlOpt a1 (.child "modelParameters") ++ (xmlOpt a2 (.child "quantitativeAnalysis") ++ (xmlOpt a3 (.child "considerations") ++ (xmlOpt a4 (.list "properties" (.child "property")) ++ []))))) :=
  xml_at (names := ["bomRef", "modelParameters", "quantitativeAnalysis", "considerations", "properties"]) (slots := [(some 0, .attribute "bom-ref"), (some 1, .child "modelParameters"), (some 2, .child "quantitativeAnalysis"), (some 3, .child "considerations"), (some 4, .list "properties" (.child "property"))]) (by decide +kernel) (by decide +kernel) tag [a0, a1, a2, a3, a4]

theorem DataClassification.fields (tag : String) (a0 a1 : Option Tree) : xml (.mk "DataClassification" [("flow", a0), ("classification", a1)]) (.child tag) =
    writeElem tag (mkAttrs [("flow", a0.bind Tree.asText)]) (
      xmlOpt a0 (.attribute "flow") ++ (xmlOpt a1 (.content) ++ [])) :=
  xml_at (names := ["flow", "classification"]) (slots := [(some 0, .attribute "flow"), (some 1, .content)]) (by decide +kernel) (by decide +kernel) tag [a0, a1]

theorem ServiceData.fields (tag : String) (a0 a1 a2 a3 a4 a5 : Option Tree) : xml (.mk "ServiceData" [("name", a0), ("description", a1), ("classification", a2), ("governance", a3), ("source", a4), ("destination", a5)]) (.child tag) =
    writeElem tag (mkAttrs [("name", a0.bind Tree.asText), ("name", a1.bind Tree.asText)]) (
      xmlOpt a0 (.attribute "name") ++ (xmlOpt a1 (.attribute "name") ++ (xmlOpt a2 (.child "classification") ++ (xmlOpt a3 (.child "governance") ++ (xmlOpt a4 (.list "source" (.child "url")) ++ (xmlOpt a5 (.list "destination" (.child "url")) ++ [])))))) :=
  xml_at (names := ["name", "description", "classification", "governance", "source", "destination"]) (slots := [(some 0, .attribute "name"), (some 1, .attribute "name"), (some 2, .child "classification"), (some 3, .child "governance"), (some 4, .list "source" (.child "url")), (some 5, .list "destination" (.child "url"))]) (by decide +kernel) (by decide +kernel) tag [a0, a1, a2, a3, a4, a5]

theorem Swid.fields (tag : String) (a0 a1 a2 a3 a4 a5 a6 : Option Tree) : xml (.mk "Swid" [("tagId", a0), ("name", a1), ("version", a2), ("tagVersion", a3), ("patch", a4), ("text", a5), ("url", a6)]) (.child tag) =
    writeElem tag (mkAttrs [("tagId", a0.bind Tree.asText), ("name", a1.bind Tree.asText), ("version", a2.bind Tree.asText), ("tagVersion", a3.bind Tree.asText), ("patch", a4.bind Tree.asText)]) (
      xmlOpt a0 (.attribute "tagId") ++ (xmlOpt a1 (.attribute "name") ++ (xmlOpt a2 (.attribute "version") ++ (xmlOpt a3 (.attribute "tagVersion") ++ (xmlOpt a4 (.attribute "patch") ++ (xmlOpt a5 (.child "text") ++ (xmlOpt a6 (.child "url") ++ []))))))) :=
  xml_at (names := ["tagId", "name", "version", "tagVersion", "patch", "text", "url"]) (slots := [(some 0, .attribute "tagId"), (some 1, .attribute "name"), (some 2, .attribute "version"), (some 3, .attribute "tagVersion"), (some 4, .attribute "patch"), (some 5, .child "text"), (some 6, .child "url")]) (by decide +kernel) (by decide +kernel) tag [a0, a1, a2, a3, a4, a5, a6]

theorem Pedigree.fields (tag : String) (a0 a1 a2 a3 a4 a5 : Option Tree) : xml (.mk "Pedigree" [("ancestors", a0), ("descendants", a1), ("variants", a2), ("commits", a3), ("patches", a4), ("notes", a5)]) (.child tag) =
    writeElem tag (mkAttrs []) (
      xmlOpt a0 (.list "ancestors" (.child "component")) ++ (xmlOpt a1 (.list "descendants" (.child "component")) ++ (xmlOpt a2 (.list "variants" (.child "component")) ++ (xmlOpt a3 (.list "commits" (.child "commit")) ++ (xmlOpt a4 (.list "patches" (.child "patch")) ++ (xmlOpt a5 (.child "notes") ++ [])))))) :=
  xml_at (names := ["ancestors", "descendants", "variants", "commits", "patches", "notes"]) (slots := [(some 0, .list "ancestors" (.child "component")), (some 1, .list "descendants" (.child "component")), (some 2, .list "variants" (.child "component")), (some 3, .list "commits" (.child "commit")), (some 4, .list "patches" (.child "patch")), (some 5, .child "notes")]) (by decide +kernel) (by decide +kernel) tag [a0, a1, a2, a3, a4, a5]

theorem Component.fields (tag : String) (a0 a1 a2 a3 a4 a5 a6 a7 a8 a9 a10 a11 a12 a13 a14 a15 a16 a17 a18 a19 a20 a21 a22 a23 a24 a25 : Option Tree) : xml (.mk "Component" [("componentType", a0), ("mimeType", a1), ("bomRef", a2), ("supplier", a3), ("author", a4), ("publisher", a5), ("group", a6), ("name", a7), ("version", a8), ("description", a9), ("scope", a10), ("hashes", a11), ("licenses", a12), ("copyright", a13), ("cpe", a14), ("purl", a15), ("swid", a16), ("modified", a17), ("pedigree", a18), ("externalReferences", a19), ("properties", a20), ("components", a21), ("evidence", a22), ("signature", a23), ("modelCard", a24), ("data", a25)]) (.child tag) =
    writeElem tag (mkAttrs [("type", a0.bind Tree.asText), ("mime-type", a1.bind Tree.asText), ("bom-ref", a2.bind Tree.asText)]) (
      xmlOpt a0 (.attribute "type") ++ (xmlOpt a1 (.attribute "mime-type") ++ (xmlOpt a2 (.attribute "bom-ref") ++ (xmlOpt a3 (.childIf ["name", "url", "contact"] "supplier") ++ (xmlOpt a4 (.child "author") ++ (xmlOpt a5 (.child "publisher") ++ (xmlOpt a6 (.child "group") ++ (xmlOpt a7 (.child "name") ++ (xmlOpt a8 (.child "version") ++ (xmlOpt a9 (.child "description") ++ (xmlOpt a10 (.child "scope") ++ (xmlOpt a11 (.list "hashes" (.child "hash")) ++ (xmlOpt a12 (.list "licenses" (.child "license")) ++ (xmlOpt a13 (.child "copyright") ++ (xmlOpt a14 (.child "cpe") ++ (xmlOpt a15 (.child "purl") ++ (xmlOpt a16 (.child "swid") ++ (xmlOpt a17 (.child "modified") ++ (xmlOpt a18 (.child "pedigree") ++ (xmlOpt a19 (.list "externalReferences" (.child "reference")) ++ (xmlOpt a20 (.list "properties" (.child "property")) ++ (xmlOpt a21 (.list "components" (.child "component")) ++ (xmlOpt a22 (.childIf ["licenses", "copyright"] "evidence") ++ (xmlOpt a23 (.child "signature") ++ (xmlOpt a24 (.child "modelCard") ++ (xmlOpt a25 (.child "data") ++ [])))))))))))))))))))))))))) :=
  xml_at (names := ["componentType", "mimeType", "bomRef", "supplier", "author", "publisher", "group", "name", "version", "description", "scope", "hashes", "licenses", "copyright", "cpe", "purl", "swid", "modified", "pedigree", "externalReferences", "properties", "components", "evidence", "signature", "modelCard", "data"]) (slots := [(some 0, .attribute "type"), (some 1, .attribute "mime-type"), (some 2, .attribute "bom-ref"), (some 3, .childIf ["name", "url", "contact"] "supplier"), (some 4, .child "author"), (some 5, .child "publisher"), (some 6, .child "group"), (some 7, .child "name"), (some 8, .child "version"), (some 9, .child "description"), (some 10, .child "scope"), (some 11, .list "hashes" (.child "hash")), (some 12, .list "licenses" (.child "license")), (some 13, .child "copyright"), (some 14, .child "cpe"), (some 15, .child "purl"), (some 16, .child "swid"), (some 17, .child "modified"), (some 18, .child "pedigree"), (some 19, .list "externalReferences" (.child "reference")), (some 20, .list "properties" (.child "property")), (some 21, .list "components" (.child "component")), (some 22, .childIf ["licenses", "copyright"] "evidence"), (some 23, .child "signature"), (some 24, .child "modelCard"), (some 25, .child "data")]) (by decide +kernel) (by decide +kernel) tag [a0, a1, a2, a3, a4, a5, a6, a7, a8, a9, a10, a11, a12, a13, a14, a15, a16, a17, a18, a19, a20, a21, a22, a23, a24, a25]

theorem Service.fields (tag : String) (a0 a1 a2 a3 a4 a5 a6 a7 a8 a9 a10 a11 a12 a13 a14 a15 : Option Tree) : xml (.mk "Service" [("bomRef", a0), ("provider", a1), ("group", a2), ("name", a3), ("version", a4), ("description", a5), ("endpoints", a6), ("authenticated", a7), ("xTrustBoundary", a8), ("data", a9), ("licenses", a10), ("externalReferences", a11), ("properties", a12), ("services", a13), ("signature", a14), ("trustZone", a15)]) (.child tag) =
    writeElem tag (mkAttrs [("bom-ref", a0.bind Tree.asText)]) (
      xmlOpt a0 (.attribute "bom-ref") ++ (xmlOpt a1 (.child "provider") ++ (xmlOpt a2 (.child "group") ++ (xmlOpt a3 (.child "name") ++ (xmlOpt a4 (.child "version") ++ (xmlOpt a5 (.child "description") ++ (xmlOpt a6 (.list "endpoints" (.child "endpoint")) ++ (xmlOpt a7 (.child "authenticated") ++ (xmlOpt a8 (.child "x-trust-boundary") ++ (xmlOpt a9 (.child "data") ++ (xmlOpt a10 (.list "licenses" (.child "license")) ++ (xmlOpt a11 (.list "externalReferences" (.child "reference")) ++ (xmlOpt a12 (.list "properties" (.child "property")) ++ (xmlOpt a13 (.list "services" (.child "service")) ++ (xmlOpt a14 (.child "signature") ++ (xmlOpt a15 (.child "trustZone") ++ [])))))))))))))))) :=
  xml_at (names := ["bomRef", "provider", "group", "name", "version", "description", "endpoints", "authenticated", "xTrustBoundary", "data", "licenses", "externalReferences", "properties", "services", "signature", "trustZone"]) (slots := [(some 0, .attribute "bom-ref"), (some 1, .child "provider"), (some 2, .child "group"), (some 3, .child "name"), (some 4, .child "version"), (some 5, .child "description"), (some 6, .list "endpoints" (.child "endpoint")), (some 7, .child "authenticated"), (some 8, .child "x-trust-boundary"), (some 9, .child "data"), (some 10, .list "licenses" (.child "license")), (some 11, .list "externalReferences" (.child "reference")), (some 12, .list "properties" (.child "property")), (some 13, .list "services" (.child "service")), (some 14, .child "signature"), (some 15, .child "trustZone")]) (by decide +kernel) (by decide +kernel) tag [a0, a1, a2, a3, a4, a5, a6, a7, a8, a9, a10, a11, a12, a13, a14, a15]

theorem Tool.fields (tag : String) (a0 a1 a2 a3 a4 : Option Tree) : xml (.mk "Tool" [("vendor", a0), ("name", a1), ("version", a2), ("hashes", a3), ("externalReferences", a4)]) (.child tag) =
    writeElem tag (mkAttrs []) (
      xmlOpt a0 (.child "vendor") ++ (xmlOpt a1 (.child "name") ++ (xmlOpt a2 (.child "version") ++ (xmlOpt a3 (.list "hashes" (.child "hash")) ++ (xmlOpt a4 (.list "externalReferences" (.child "reference")) ++ []))))) :=
  xml_at (names := ["vendor", "name", "version", "hashes", "externalReferences"]) (slots := [(some 0, .child "vendor"), (some 1, .child "name"), (some 2, .child "version"), (some 3, .list "hashes" (.child "hash")), (some 4, .list "externalReferences" (.child "reference"))]) (by decide +kernel) (by decide +kernel) tag [a0, a1, a2, a3, a4]

theorem Tools.fields (tag : String) (a0 a1 : Option Tree) : xml (.mk "Tools" [("services", a0), ("components", a1)]) (.child tag) =
    writeElem tag (mkAttrs []) (
      xmlOpt a0 (.list "services" (.child "service")) ++ (xmlOpt a1 (.list "components" (.child "component")) ++ [])) :=
  xml_at (names := ["services", "components"]) (slots := [(some 0, .list "services" (.child "service")), (some 1, .list "components" (.child "component"))]) (by decide +kernel) (by decide +kernel) tag [a0, a1]

theorem Metadata.fields (tag : String) (a0 a1 a2 a3 a4 a5 a6 a7 a8 : Option Tree) : xml (.mk "Metadata" [("timestamp", a0), ("tools", a1), ("authors", a2), ("component", a3), ("manufacture", a4), ("supplier", a5), ("licenses", a6), ("properties", a7), ("lifecycles", a8)]) (.child tag) =
    writeElem tag (mkAttrs []) (
      xmlOpt a0 (.child "timestamp") ++ (xmlOpt a1 (.child "tools") ++ (xmlOpt a2 (.list "authors" (.childIf ["name", "email", "phone"] "author")) ++ (xmlOpt a3 (.child "component") ++ (xmlOpt a4 (.child "manufacture") ++ (xmlOpt a5 (.child "supplier") ++ (xmlOpt a6 (.list "licenses" (.child "license")) ++ (xmlOpt a7 (.list "properties" (.child "property")) ++ (xmlOpt a8 (.list "lifecycles" (.child "lifecycle")) ++ []))))))))) :=
  xml_at (names := ["timestamp", "tools", "authors", "component", "manufacture", "supplier", "licenses", "properties", "lifecycles"]) (slots := [(some 0, .child "timestamp"), (some 1, .child "tools"), (some 2, .list "authors" (.childIf ["name", "email", "phone"] "author")), (some 3, .child "component"), (some 4, .child "manufacture"), (some 5, .child "supplier"), (some 6, .list "licenses" (.child "license")), (some 7, .list "properties" (.child "property")), (some 8, .list "lifecycles" (.child "lifecycle"))]) (by decide +kernel) (by decide +kernel) tag [a0, a1, a2, a3, a4, a5, a6, a7, a8]

theorem Vulnerability.fields (tag : String) (a0 a1 a2 a3 a4 a5 a6 a7 a8 a9 a10 a11 a12 a13 a14 a15 a16 a17 a18 a19 a20 : Option Tree) : xml (.mk "Vulnerability" [("bomRef", a0), ("id", a1), ("vulnerabilitySource", a2), ("vulnerabilityReferences", a3), ("vulnerabilityRatings", a4), ("cwes", a5), ("description", a6), ("detail", a7), ("recommendation", a8), ("advisories", a9), ("created", a10), ("published", a11), ("updated", a12), ("vulnerabilityCredits", a13), ("tools", a14), ("vulnerabilityAnalysis", a15), ("vulnerabilityTargets", a16), ("properties", a17), ("workaround", a18), ("proofOfConcept", a19), ("rejected", a20)]) (.child tag) =
    writeElem tag (mkAttrs [("bom-ref", a0.bind Tree.asText)]) (
      xmlOpt a0 (.attribute "bom-ref") ++ (xmlOpt a1 (.child "id") ++ (xmlOpt a2 (.child "source") ++ (xmlOpt a3 (.list "references" (.child "reference")) ++ (xmlOpt a4 (.list "ratings" (.child "rating")) ++ (xmlOpt a5 (.list "cwes" (.child "cwe")) ++ (xmlOpt a6 (.child "description") ++ (xmlOpt a7 (.always "detail") ++ (xmlOpt a8 (.child "recommendation") ++ (xmlOpt a9 (.list "advisories" (.child "advisory")) ++ (xmlOpt a10 (.child "created") ++ (xmlOpt a11 (.child "published") ++ (xmlOpt a12 (.child "updated") ++ (xmlOpt a20 (.child "rejected") ++ (xmlOpt a13 (.child "credits") ++ (xmlOpt a14 (.child "tools") ++ (xmlOpt a15 (.child "analysis") ++ (xmlOpt a16 (.list "affects" (.child "target")) ++ (xmlOpt a17 (.list "properties" (.child "property")) ++ (xmlOpt a18 (.child "workaround") ++ [])))))))))))))))))))) :=
  xml_at (names := ["bomRef", "id", "vulnerabilitySource", "vulnerabilityReferences", "vulnerabilityRatings", "cwes", "description", "detail", "recommendation", "advisories", "created", "published", "updated", "vulnerabilityCredits", "tools", "vulnerabilityAnalysis", "vulnerabilityTargets", "properties", "workaround", "proofOfConcept", "rejected"]) (slots := [(some 0, .attribute "bom-ref"), (some 1, .child "id"), (some 2, .child "source"), (some 3, .list "references" (.child "reference")), (some 4, .list "ratings" (.child "rating")), (some 5, .list "cwes" (.child "cwe")), (some 6, .child "description"), (some 7, .always "detail"), (some 8, .child "recommendation"), (some 9, .list "advisories" (.child "advisory")), (some 10, .child "created"), (some 11, .child "published"), (some 12, .child "updated"), (some 20, .child "rejected"), (some 13, .child "credits"), (some 14, .child "tools"), (some 15, .child "analysis"), (some 16, .list "affects" (.child "target")), (some 17, .list "properties" (.child "property")), (some 18, .child "workaround")]) (by decide +kernel) (by decide +kernel) tag [a0, a1, a2, a3, a4, a5, a6, a7, a8, a9, a10, a11, a12, a13, a14, a15, a16, a17, a18, a19, a20]

theorem EnvironmentVar.fields (tag : String) (a0 a1 : Option Tree) : xml (.mk "EnvironmentVar" [("name", a0), ("value", a1)]) (.child tag) =
    writeElem tag (mkAttrs [("name", a0.bind Tree.asText)]) (
      xmlOpt a0 (.attribute "name") ++ (xmlOpt a1 (.content) ++ [])) :=
  xml_at (names := ["name", "value"]) (slots := [(some 0, .attribute "name"), (some 1, .content)]) (by decide +kernel) (by decide +kernel) tag [a0, a1]

theorem Parameter.fields (tag : String) (a0 a1 a2 : Option Tree) : xml (.mk "Parameter" [("name", a0), ("value", a1), ("dataType", a2)]) (.child tag) =
    writeElem tag (mkAttrs []) (
      xmlOpt a0 (.child "name") ++ (xmlOpt a1 (.child "value") ++ (xmlOpt a2 (.child "dataType") ++ []))) :=
  xml_at (names := ["name", "value", "dataType"]) (slots := [(some 0, .child "name"), (some 1, .child "value"), (some 2, .child "dataType")]) (by decide +kernel) (by decide +kernel) tag [a0, a1, a2]

theorem Input.fields_resource (tag : String) (a0 a1 a2 a3 : Option Tree) : xml (.mk "Input" [("resource", a0), ("source", a1), ("target", a2), ("properties", a3)]) (.child tag) =
    writeElem tag (mkAttrs []) (
      xmlOpt a0 (.child "resource") ++ (xmlOpt none (.list "parameters" (.child "parameter")) ++ (xmlOpt none (.list "environmentVars" (.child "environmentVar")) ++ (xmlOpt none (.child "data") ++ (xmlOpt a1 (.child "source") ++ (xmlOpt a2 (.child "target") ++ (xmlOpt a3 (.list "properties" (.child "property")) ++ []))))))) :=
  xml_at (names := ["resource", "source", "target", "properties"]) (slots := [(some 0, .child "resource"), (none, .list "parameters" (.child "parameter")), (none, .list "environmentVars" (.child "environmentVar")), (none, .child "data"), (some 1, .child "source"), (some 2, .child "target"), (some 3, .list "properties" (.child "property"))]) (by decide +kernel) (by decide +kernel) tag [a0, a1, a2, a3]

theorem Input.fields_parameters (tag : String) (a0 a1 a2 a3 : Option Tree) : xml (.mk "Input" [("parameters", a0), ("source", a1), ("target", a2), ("properties", a3)]) (.child tag) =
    writeElem tag (mkAttrs []) (
      xmlOpt none (.child "resource") ++ (xmlOpt a0 (.list "parameters" (.child "parameter")) ++ (xmlOpt none (.list "environmentVars" (.child "environmentVar")) ++ (xmlOpt none (.child "data") ++ (xmlOpt a1 (.child "source") ++ (xmlOpt a2 (.child "target") ++ (xmlOpt a3 (.list "properties" (.child "property")) ++ []))))))) :=
  xml_at (names := ["parameters", "source", "target", "properties"]) (slots := [(none, .child "resource"), (some 0, .list "parameters" (.child "parameter")), (none, .list "environmentVars" (.child "environmentVar")), (none, .child "data"), (some 1, .child "source"), (some 2, .child "target"), (some 3, .list "properties" (.child "property"))]) (by decide +kernel) (by decide +kernel) tag [a0, a1, a2, a3]

theorem Input.fields_environmentVars (tag : String) (a0 a1 a2 a3 : Option Tree) : xml (.mk "Input" [("environmentVars", a0), ("source", a1), ("target", a2), ("properties", a3)]) (.child tag) =
    writeElem tag (mkAttrs []) (
      xmlOpt none (.child "resource") ++ (xmlOpt none (.list "parameters" (.child "parameter")) ++ (xmlOpt a0 (.list "environmentVars" (.child "environmentVar")) ++ (xmlOpt none (.child "data") ++ (xmlOpt a1 (.child "source") ++ (xmlOpt a2 (.child "target") ++ (xmlOpt a3 (.list "properties" (.child "property")) ++ []))))))) :=
  xml_at (names := ["environmentVars", "source", "target", "properties"]) (slots := [(none, .child "resource"), (none, .list "parameters" (.child "parameter")), (some 0, .list "environmentVars" (.child "environmentVar")), (none, .child "data"), (some 1, .child "source"), (some 2, .child "target"), (some 3, .list "properties" (.child "property"))]) (by decide +kernel) (by decide +kernel) tag [a0, a1, a2, a3]

theorem Input.fields_data (tag : String) (a0 a1 a2 a3 : Option Tree) : xml (.mk "Input" [("data", a0), ("source", a1), ("target", a2), ("properties", a3)]) (.child tag) =
    writeElem tag (mkAttrs []) (
      xmlOpt none (.child "resource") ++ (xmlOpt none (.list "parameters" (.child "parameter")) ++ (xmlOpt none (.list "environmentVars" (.child "environmentVar")) ++ (xmlOpt a0 (.child "data") ++ (xmlOpt a1 (.child "source") ++ (xmlOpt a2 (.child "target") ++ (xmlOpt a3 (.list "properties" (.child "property")) ++ []))))))) :=
  xml_at (names := ["data", "source", "target", "properties"]) (slots := [(none, .child "resource"), (none, .list "parameters" (.child "parameter")), (none, .list "environmentVars" (.child "environmentVar")), (some 0, .child "data"), (some 1, .child "source"), (some 2, .child "target"), (some 3, .list "properties" (.child "property"))]) (by decide +kernel) (by decide +kernel) tag [a0, a1, a2, a3]

theorem Output.fields_resource (tag : String) (a0 a1 a2 a3 a4 : Option Tree) : xml (.mk "Output" [("resource", a0), ("type", a1), ("source", a2), ("target", a3), ("properties", a4)]) (.child tag) =
    writeElem tag (mkAttrs []) (
      xmlOpt a0 (.child "resource") ++ (xmlOpt none (.list "environmentVars" (.child "environmentVar")) ++ (xmlOpt none (.child "data") ++ (xmlOpt a1 (.child "type") ++ (xmlOpt a2 (.child "source") ++ (xmlOpt a3 (.child "target") ++ (xmlOpt a4 (.list "properties" (.child "property")) ++ []))))))) :=
  xml_at (names := ["resource", "type", "source", "target", "properties"]) (slots := [(some 0, .child "resource"), (none, .list "environmentVars" (.child "environmentVar")), (none, .child "data"), (some 1, .child "type"), (some 2, .child "source"), (some 3, .child "target"), (some 4, .list "properties" (.child "property"))]) (by decide +kernel) (by decide +kernel) tag [a0, a1, a2, a3, a4]

theorem Output.fields_environmentVars (tag : String) (a0 a1 a2 a3 a4 : Option Tree) : xml (.mk "Output" [("environmentVars", a0), ("type", a1), ("source", a2), ("target", a3), ("properties", a4)]) (.child tag) =
    writeElem tag (mkAttrs []) (
      xmlOpt none (.child "resource") ++ (xmlOpt a0 (.list "environmentVars" (.child "environmentVar")) ++ (xmlOpt none (.child "data") ++ (xmlOpt a1 (.child "type") ++ (xmlOpt a2 (.child "source") ++ (xmlOpt a3 (.child "target") ++ (xmlOpt a4 (.list "properties" (.child "property")) ++ []))))))) :=
  xml_at (names := ["environmentVars", "type", "source", "target", "properties"]) (slots := [(none, .child "resource"), (some 0, .list "environmentVars" (.child "environmentVar")), (none, .child "data"), (some 1, .child "type"), (some 2, .child "source"), (some 3, .child "target"), (some 4, .list "properties" (.child "property"))]) (by decide +kernel) (by decide +kernel) tag [a0, a1, a2, a3, a4]

theorem Output.fields_data (tag : String) (a0 a1 a2 a3 a4 : Option Tree) : xml (.mk "Output" [("data", a0), ("type", a1), ("source", a2), ("target", a3), ("properties", a4)]) (.child tag) =
    writeElem tag (mkAttrs []) (
      xmlOpt none (.child "resource") ++ (xmlOpt none (.list "environmentVars" (.child "environmentVar")) ++ (xmlOpt a0 (.child "data") ++ (xmlOpt a1 (.child "type") ++ (xmlOpt a2 (.child "source") ++ (xmlOpt a3 (.child "target") ++ (xmlOpt a4 (.list "properties" (.child "property")) ++ []))))))) :=
  xml_at (names := ["data", "type", "source", "target", "properties"]) (slots := [(none, .child "resource"), (none, .list "environmentVars" (.child "environmentVar")), (some 0, .child "data"), (some 1, .child "type"), (some 2, .child "source"), (some 3, .child "target"), (some 4, .list "properties" (.child "property"))]) (by decide +kernel) (by decide +kernel) tag [a0, a1, a2, a3, a4]

theorem Command.fields (tag : String) (a0 a1 : Option Tree) : xml (.mk "Command" [("executed", a0), ("properties", a1)]) (.child tag) =
    writeElem tag (mkAttrs []) (
      xmlOpt a0 (.child "executed") ++ (xmlOpt a1 (.list "properties" (.child "property")) ++ [])) :=
  xml_at (names := ["executed", "properties"]) (slots := [(some 0, .child "executed"), (some 1, .list "properties" (.child "property"))]) (by decide +kernel) (by decide +kernel) tag [a0, a1]

theorem Step.fields (tag : String) (a0 a1 a2 a3 : Option Tree) : xml (.mk "Step" [("commands", a0), ("description", a1), ("name", a2), ("properties", a3)]) (.child tag) =
    writeElem tag (mkAttrs []) (
      xmlOpt a0 (.list "commands" (.child "command")) ++ (xmlOpt a1 (.child "description") ++ (xmlOpt a2 (.child "name") ++ (xmlOpt a3 (.list "properties" (.child "property")) ++ [])))) :=
  xml_at (names := ["commands", "description", "name", "properties"]) (slots := [(some 0, .list "commands" (.child "command")), (some 1, .child "description"), (some 2, .child "name"), (some 3, .list "properties" (.child "property"))]) (by decide +kernel) (by decide +kernel) tag [a0, a1, a2, a3]

theorem TriggerEvent.fields (tag : String) (a0 a1 a2 a3 a4 a5 a6 : Option Tree) : xml (.mk "TriggerEvent" [("uid", a0), ("description", a1), ("timeReceived", a2), ("data", a3), ("source", a4), ("target", a5), ("properties", a6)]) (.child tag) =
    writeElem tag (mkAttrs []) (
      xmlOpt a0 (.child "uid") ++ (xmlOpt a1 (.child "description") ++ (xmlOpt a2 (.child "timeReceived") ++ (xmlOpt a3 (.child "data") ++ (xmlOpt a4 (.child "source") ++ (xmlOpt a5 (.child "target") ++ (xmlOpt a6 (.list "properties" (.child "property")) ++ []))))))) :=
  xml_at (names := ["uid", "description", "timeReceived", "data", "source", "target", "properties"]) (slots := [(some 0, .child "uid"), (some 1, .child "description"), (some 2, .child "timeReceived"), (some 3, .child "data"), (some 4, .child "source"), (some 5, .child "target"), (some 6, .list "properties" (.child "property"))]) (by decide +kernel) (by decide +kernel) tag [a0, a1, a2, a3, a4, a5, a6]

theorem Condition.fields (tag : String) (a0 a1 a2 : Option Tree) : xml (.mk "Condition" [("description", a0), ("expression", a1), ("properties", a2)]) (.child tag) =
    writeElem tag (mkAttrs []) (
      xmlOpt a0 (.child "description") ++ (xmlOpt a1 (.child "expression") ++ (xmlOpt a2 (.list "properties" (.child "property")) ++ []))) :=
  xml_at (names := ["description", "expression", "properties"]) (slots := [(some 0, .child "description"), (some 1, .child "expression"), (some 2, .list "properties" (.child "property"))]) (by decide +kernel) (by decide +kernel) tag [a0, a1, a2]

theorem Trigger.fields (tag : String) (a0 a1 a2 a3 a4 a5 a6 a7 a8 a9 a10 a11 : Option Tree) : xml (.mk "Trigger" [("bomRef", a0), ("uid", a1), ("name", a2), ("description", a3), ("resourceReferences", a4), ("type", a5), ("event", a6), ("conditions", a7), ("timeActivated", a8), ("inputs", a9), ("outputs", a10), ("properties", a11)]) (.child tag) =
    writeElem tag (mkAttrs [("bom-ref", a0.bind Tree.asText)]) (
      xmlOpt a0 (.attribute "bom-ref") ++ (xmlOpt a1 (.child "uid") ++ (xmlOpt a2 (.child "name") ++ (xmlOpt a3 (.child "description") ++ (xmlOpt a4 (.list "resourceReferences" (.child "resourceReference")) ++ (xmlOpt a5 (.child "type") ++ (xmlOpt a6 (.child "event") ++ (xmlOpt a7 (.list "conditions" (.child "condition")) ++ (xmlOpt a8 (.child "timeActivated") ++ (xmlOpt a9 (.list "inputs" (.child "input")) ++ (xmlOpt a10 (.list "outputs" (.child "output")) ++ (xmlOpt a11 (.list "properties" (.child "property")) ++ [])))))))))))) :=
  xml_at (names := ["bomRef", "uid", "name", "description", "resourceReferences", "type", "event", "conditions", "timeActivated", "inputs", "outputs", "properties"]) (slots := [(some 0, .attribute "bom-ref"), (some 1, .child "uid"), (some 2, .child "name"), (some 3, .child "description"), (some 4, .list "resourceReferences" (.child "resourceReference")), (some 5, .child "type"), (some 6, .child "event"), (some 7, .list "conditions" (.child "condition")), (some 8, .child "timeActivated"), (some 9, .list "inputs" (.child "input")), (some 10, .list "outputs" (.child "output")), (some 11, .list "properties" (.child "property"))]) (by decide +kernel) (by decide +kernel) tag [a0, a1, a2, a3, a4, a5, a6, a7, a8, a9, a10, a11]

theorem Volume.fields (tag : String) (a0 a1 a2 a3 a4 a5 a6 a7 : Option Tree) : xml (.mk "Volume" [("uid", a0), ("name", a1), ("mode", a2), ("path", a3), ("sizeAllocated", a4), ("persistent", a5), ("remote", a6), ("properties", a7)]) (.child tag) =
    writeElem tag (mkAttrs []) (
      xmlOpt a0 (.child "uid") ++ (xmlOpt a1 (.child "name") ++ (xmlOpt a2 (.child "mode") ++ (xmlOpt a3 (.child "path") ++ (xmlOpt a4 (.child "sizeAllocated") ++ (xmlOpt a5 (.child "persistent") ++ (xmlOpt a6 (.child "remote") ++ (xmlOpt a7 (.list "properties" (.child "property")) ++ [])))))))) :=
  xml_at (names := ["uid", "name", "mode", "path", "sizeAllocated", "persistent", "remote", "properties"]) (slots := [(some 0, .child "uid"), (some 1, .child "name"), (some 2, .child "mode"), (some 3, .child "path"), (some 4, .child "sizeAllocated"), (some 5, .child "persistent"), (some 6, .child "remote"), (some 7, .list "properties" (.child "property"))]) (by decide +kernel) (by decide +kernel) tag [a0, a1, a2, a3, a4, a5, a6, a7]

theorem Workspace.fields (tag : String) (a0 a1 a2 a3 a4 a5 a6 a7 a8 a9 a10 a11 : Option Tree) : xml (.mk "Workspace" [("bomRef", a0), ("uid", a1), ("name", a2), ("aliases", a3), ("description", a4), ("resourceReferences", a5), ("accessMode", a6), ("mountPath", a7), ("managedDataType", a8), ("volumeRequest", a9), ("volume", a10), ("properties", a11)]) (.child tag) =
    writeElem tag (mkAttrs [("bom-ref", a0.bind Tree.asText)]) (
      xmlOpt a0 (.attribute "bom-ref") ++ (xmlOpt a1 (.child "uid") ++ (xmlOpt a2 (.child "name") ++ (xmlOpt a3 (.list "aliases" (.child "alias")) ++ (xmlOpt a4 (.child "description") ++ (xmlOpt a5 (.list "resourceReferences" (.child "resourceReference")) ++ (xmlOpt a6 (.child "accessMode") ++ (xmlOpt a7 (.child "mountPath") ++ (xmlOpt a8 (.child "managedDataType") ++ (xmlOpt a9 (.child "volumeRequest") ++ (xmlOpt a10 (.child "volume") ++ (xmlOpt a11 (.list "properties" (.child "property")) ++ [])))))))))))) :=
  xml_at (names := ["bomRef", "uid", "name", "aliases", "description", "resourceReferences", "accessMode", "mountPath", "managedDataType", "volumeRequest", "volume", "properties"]) (slots := [(some 0, .attribute "bom-ref"), (some 1, .child "uid"), (some 2, .child "name"), (some 3, .list "aliases" (.child "alias")), (some 4, .child "description"), (some 5, .list "resourceReferences" (.child "resourceReference")), (some 6, .child "accessMode"), (some 7, .child "mountPath"), (some 8, .child "managedDataType"), (some 9, .child "volumeRequest"), (some 10, .child "volume"), (some 11, .list "properties" (.child "property"))]) (by decide +kernel) (by decide +kernel) tag [a0, a1, a2, a3, a4, a5, a6, a7, a8, a9, a10, a11]

theorem WorkflowTask.fields (tag : String) (a0 a1 a2 a3 a4 a5 a6 a7 a8 a9 a10 a11 a12 a13 a14 : Option Tree) : xml (.mk "WorkflowTask" [("bomRef", a0), ("uid", a1), ("name", a2), ("description", a3), ("resourceReferences", a4), ("taskTypes", a5), ("trigger", a6), ("steps", a7), ("inputs", a8), ("outputs", a9), ("timeStart", a10), ("timeEnd", a11), ("workspaces", a12), ("runtimeTopology", a13), ("properties", a14)]) (.child tag) =
    writeElem tag (mkAttrs [("bom-ref", a0.bind Tree.asText)]) (
      xmlOpt a0 (.attribute "bom-ref") ++ (xmlOpt a1 (.child "uid") ++ (xmlOpt a2 (.child "name") ++ (xmlOpt a3 (.child "description") ++ (xmlOpt a4 (.list "resourceReferences" (.child "resourceReference")) ++ (xmlOpt a6 (.child "trigger") ++ (xmlOpt a7 (.list "steps" (.child "step")) ++ (xmlOpt a8 (.list "inputs" (.child "input")) ++ (xmlOpt a9 (.list "outputs" (.child "output")) ++ (xmlOpt a10 (.child "timeStart") ++ (xmlOpt a11 (.child "timeEnd") ++ (xmlOpt a12 (.list "workspaces" (.child "workspace")) ++ (xmlOpt a13 (.list "runtimeTopology" (.child "dependency")) ++ (xmlOpt a14 (.list "properties" (.child "property")) ++ [])))))))))))))) :=
  xml_at (names := ["bomRef", "uid", "name", "description", "resourceReferences", "taskTypes", "trigger", "steps", "inputs", "outputs", "timeStart", "timeEnd", "workspaces", "runtimeTopology", "properties"]) (slots := [(some 0, .attribute "bom-ref"), (some 1, .child "uid"), (some 2, .child "name"), (some 3, .child "description"), (some 4, .list "resourceReferences" (.child "resourceReference")), (some 6, .child "trigger"), (some 7, .list "steps" (.child "step")), (some 8, .list "inputs" (.child "input")), (some 9, .list "outputs" (.child "output")), (some 10, .child "timeStart"), (some 11, .child "timeEnd"), (some 12, .list "workspaces" (.child "workspace")), (some 13, .list "runtimeTopology" (.child "dependency")), (some 14, .list "properties" (.child "property"))]) (by decide +kernel) (by decide +kernel) tag [a0, a1, a2, a3, a4, a5, a6, a7, a8, a9, a10, a11, a12, a13, a14]

theorem Workflow.fields (tag : String) (a0 a1 a2 a3 a4 a5 a6 a7 a8 a9 a10 a11 a12 a13 a14 a15 a16 : Option Tree) : xml (.mk "Workflow" [("bomRef", a0), ("uid", a1), ("name", a2), ("description", a3), ("resourceReferences", a4), ("tasks", a5), ("taskDependencies", a6), ("taskTypes", a7), ("trigger", a8), ("steps", a9), ("inputs", a10), ("outputs", a11), ("timeStart", a12), ("timeEnd", a13), ("workspaces", a14), ("runtimeTopology", a15), ("properties", a16)]) (.child tag) =
    writeElem tag (mkAttrs [("bom-ref", a0.bind Tree.asText)]) (
      xmlOpt a0 (.attribute "bom-ref") ++ (xmlOpt a1 (.child "uid") ++ (xmlOpt a2 (.child "name") ++ (xmlOpt a3 (.child "description") ++ (xmlOpt a4 (.list "resourceReferences" (.child "resourceReference")) ++ (xmlOpt a5 (.list "tasks" (.child "task")) ++ (xmlOpt a6 (.list "taskDependencies" (.child "dependency")) ++ (xmlOpt a7 (.list "taskTypes" (.child "taskType")) ++ (xmlOpt a8 (.child "trigger") ++ (xmlOpt a9 (.list "steps" (.child "step")) ++ (xmlOpt a10 (.list "inputs" (.child "input")) ++ (xmlOpt a11 (.list "outputs" (.child "output")) ++ (xmlOpt a12 (.child "timeStart") ++ (xmlOpt a13 (.child "timeEnd") ++ (xmlOpt a14 (.list "workspaces" (.child "workspace")) ++ (xmlOpt a15 (.list "runtimeTopology" (.child "dependency")) ++ (xmlOpt a16 (.list "properties" (.child "property")) ++ []))))))))))))))))) :=
  xml_at (names := ["bomRef", "uid", "name", "description", "resourceReferences", "tasks", "taskDependencies", "taskTypes", "trigger", "steps", "inputs", "outputs", "timeStart", "timeEnd", "workspaces", "runtimeTopology", "properties"]) (slots := [(some 0, .attribute "bom-ref"), (some 1, .child "uid"), (some 2, .child "name"), (some 3, .child "description"), (some 4, .list "resourceReferences" (.child "resourceReference")), (some 5, .list "tasks" (.child "task")), (some 6, .list "taskDependencies" (.child "dependency")), (some 7, .list "taskTypes" (.child "taskType")), (some 8, .child "trigger"), (some 9, .list "steps" (.child "step")), (some 10, .list "inputs" (.child "input")), (some 11, .list "outputs" (.child "output")), (some 12, .child "timeStart"), (some 13, .child "timeEnd"), (some 14, .list "workspaces" (.child "workspace")), (some 15, .list "runtimeTopology" (.child "dependency")), (some 16, .list "properties" (.child "property"))]) (by decide +kernel) (by decide +kernel) tag [a0, a1, a2, a3, a4, a5, a6, a7, a8, a9, a10, a11, a12, a13, a14, a15, a16]

theorem Formula.fields (tag : String) (a0 a1 a2 a3 a4 : Option Tree) : xml (.mk "Formula" [("bomRef", a0), ("components", a1), ("services", a2), ("workflows", a3), ("properties", a4)]) (.child tag) =
    writeElem tag (mkAttrs [("bom-ref", a0.bind Tree.asText)]) (
      xmlOpt a0 (.attribute "bom-ref") ++ (xmlOpt a1 (.list "components" (.child "component")) ++ (xmlOpt a2 (.list "services" (.child "service")) ++ (xmlOpt a3 (.list "workflows" (.child "workflow")) ++ (xmlOpt a4 (.list "properties" (.child "property")) ++ []))))) :=
  xml_at (names := ["bomRef", "components", "services", "workflows", "properties"]) (slots := [(some 0, .attribute "bom-ref"), (some 1, .list "components" (.child "component")), (some 2, .list "services" (.child "service")), (some 3, .list "workflows" (.child "workflow")), (some 4, .list "properties" (.child "property"))]) (by decide +kernel) (by decide +kernel) tag [a0, a1, a2, a3, a4]

theorem Bom.fields (tag : String) (a0 a1 a2 a3 a4 a5 a6 a7 a8 a9 a10 a11 a12 : Option Tree) : xml (.mk "Bom" [("version", a0), ("serialNumber", a1), ("metadata", a2), ("components", a3), ("services", a4), ("externalReferences", a5), ("dependencies", a6), ("compositions", a7), ("vulnerabilities", a8), ("signature", a9), ("annotations", a10), ("properties", a11), ("formulation", a12)]) (.child tag) =
    writeElem tag (mkAttrs [("serialNumber", a1.bind Tree.asText), ("version", a0.bind Tree.asText)]) (
      xmlOpt a1 (.attribute "serialNumber") ++ (xmlOpt a0 (.attribute "version") ++ (xmlOpt a2 (.child "metadata") ++ (xmlOpt a3 (.list "components" (.child "component")) ++ (xmlOpt a4 (.list "services" (.child "service")) ++ (xmlOpt a5 (.list "externalReferences" (.child "reference")) ++ (xmlOpt a6 (.list "dependencies" (.child "dependency")) ++ (xmlOpt a7 (.list "compositions" (.child "composition")) ++ (xmlOpt a11 (.list "properties" (.child "property")) ++ (xmlOpt a8 (.list "vulnerabilities" (.child "vulnerability")) ++ (xmlOpt a12 (.list "formulation" (.child "formula")) ++ []))))))))))) :=
  xml_at (names := ["version", "serialNumber", "metadata", "components", "services", "externalReferences", "dependencies", "compositions", "vulnerabilities", "signature", "annotations", "properties", "formulation"]) (slots := [(some 1, .attribute "serialNumber"), (some 0, .attribute "version"), (some 2, .child "metadata"), (some 3, .list "components" (.child "component")), (some 4, .list "services" (.child "service")), (some 5, .list "externalReferences" (.child "reference")), (some 6, .list "dependencies" (.child "dependency")), (some 7, .list "compositions" (.child "composition")), (some 11, .list "properties" (.child "property")), (some 8, .list "vulnerabilities" (.child "vulnerability")), (some 12, .list "formulation" (.child "formula"))]) (by decide +kernel) (by decide +kernel) tag [a0, a1, a2, a3, a4, a5, a6, a7, a8, a9, a10, a11, a12]

theorem LifecycleDescription.fields (tag : String) (a0 a1 : Option Tree) : xml (.mk "LifecycleDescription" [("name", a0), ("description", a1)]) (.child tag) =
    writeElem tag (mkAttrs []) (
      xmlOpt a0 (.child "name") ++ (xmlOpt a1 (.child "description") ++ [])) :=
  xml_at (names := ["name", "description"]) (slots := [(some 0, .child "name"), (some 1, .child "description")]) (by decide +kernel) (by decide +kernel) tag [a0, a1]

theorem Copyright.fields (tag : String) (a0 : Option Tree) : xml (.mk "Copyright" [("text", a0)]) (.child tag) =
    writeElem tag (mkAttrs []) (
      xmlOpt a0 (.cdata) ++ []) :=
  xml_at (names := ["text"]) (slots := [(some 0, .cdata)]) (by decide +kernel) (by decide +kernel) tag [a0]

attribute [local irreducible] layout layouts variants xml pick

theorem AttachedText.xml_tree (tag : String) (x : AttachedText) : xml x.tree (.child tag) = AttachedText.writeXml tag x := by
  xml_simp [AttachedText.tree, AttachedText.fields, AttachedText.writeXml] <;> try rfl

theorem Property.xml_tree (x : Property) : xml x.tree (.child "property") = Property.writeXml x := by
  xml_simp [Property.tree, Property.fields, Property.writeXml] <;> try rfl

theorem Hash.xml_tree (x : Hash) : xml x.tree (.child "hash") = Hash.writeXml x := by
  xml_simp [Hash.tree, Hash.fields, Hash.writeXml] <;> try rfl

theorem OrganizationalContact.xml_tree (tag : String) (x : OrganizationalContact) : xml x.tree (.child tag) = OrganizationalContact.writeXml tag x := by
  xml_simp [OrganizationalContact.tree, OrganizationalContact.fields, OrganizationalContact.writeXml] <;> try rfl

theorem OrganizationalContact.xml_if (tag : String) (x : OrganizationalContact) : xml x.tree (.childIf ["name", "email", "phone"] tag) =
    if OrganizationalContact.willWrite x then OrganizationalContact.writeXml tag x else [] := by
  have h := OrganizationalContact.xml_tree tag x
  unfold OrganizationalContact.tree at h ⊢
  rw [xml_mk_if, h]
  congr 1
  simp [or_assoc, OrganizationalContact.willWrite]

theorem OrganizationalEntity.xml_tree (tag : String) (x : OrganizationalEntity) : xml x.tree (.child tag) = OrganizationalEntity.writeXml tag x := by
  xml_simp [OrganizationalEntity.tree, OrganizationalEntity.fields, OrganizationalEntity.writeXml, OrganizationalContact.xml_tree, OrganizationalContact.xml_if] <;> try rfl

theorem OrganizationalEntity.xml_if (tag : String) (x : OrganizationalEntity) : xml x.tree (.childIf ["name", "url", "contact"] tag) =
    if OrganizationalEntity.willWrite x then OrganizationalEntity.writeXml tag x else [] := by
  have h := OrganizationalEntity.xml_tree tag x
  unfold OrganizationalEntity.tree at h ⊢
  rw [xml_mk_if, h]
  congr 1
  simp [or_assoc, OrganizationalEntity.willWrite]

theorem ExternalReference.xml_tree (x : ExternalReference) : xml x.tree (.child "reference") = ExternalReference.writeXml x := by
  xml_simp [ExternalReference.tree, ExternalReference.fields, ExternalReference.writeXml, Hash.xml_tree] <;> try rfl

theorem VulnerabilitySource.xml_tree (x : VulnerabilitySource) : xml x.tree (.child "source") = VulnerabilitySource.writeXml x := by
  xml_simp [VulnerabilitySource.tree, VulnerabilitySource.fields, VulnerabilitySource.writeXml] <;> try rfl

theorem VulnerabilityReference.xml_tree (x : VulnerabilityReference) : xml x.tree (.child "reference") = VulnerabilityReference.writeXml x := by
  xml_simp [VulnerabilityReference.tree, VulnerabilityReference.fields, VulnerabilityReference.writeXml, VulnerabilitySource.xml_tree] <;> try rfl

theorem Advisory.xml_tree (x : Advisory) : xml x.tree (.child "advisory") = Advisory.writeXml x := by
  xml_simp [Advisory.tree, Advisory.fields, Advisory.writeXml] <;> try rfl

theorem VulnerabilityCredits.xml_tree (x : VulnerabilityCredits) : xml x.tree (.child "credits") = VulnerabilityCredits.writeXml x := by
  xml_simp [VulnerabilityCredits.tree, VulnerabilityCredits.fields, VulnerabilityCredits.writeXml, OrganizationalEntity.xml_tree, OrganizationalEntity.xml_if, OrganizationalContact.xml_tree, OrganizationalContact.xml_if] <;> try rfl

theorem Algorithm.xml_tree (a : Algorithm) (tag : String) :
    xml a.tree (.child tag) = writeSimple tag (Algorithm.specName a) := by
  unfold Algorithm.tree Algorithm.specName
  cases a
  case unknown s =>
    have h : Algorithm.new (Algorithm.unknown s).display = .unknown "Unknown" := by
      show Algorithm.new "Unknown" = _
      decide +kernel
    rw [h]
    rw [xml_choice (by decide +kernel), xml_text]
    rfl
  all_goals exact xml_text _ _

theorem Signer.xml_tree (tag : String) (x : Signer) : xml x.tree (.child tag) = Signer.writeXml tag x := by
  xml_simp [Signer.tree, Signer.fields, Signer.writeXml, Algorithm.xml_tree] <;> try rfl

theorem Signature.xml_tree (x : Signature) : xml x.tree (.child "signature") = x.writeXml := by
  cases x with
  | signers l =>
    rw [Signature.tree, xml_inside (inner := .list "signers" (.child "signer")) (by decide +kernel), xml_list]
    simp only [Signer.xml_tree]
    rfl
  | chain l =>
    rw [Signature.tree, xml_inside (inner := .list "chain" (.child "chain")) (by decide +kernel), xml_list]
    simp only [Signer.xml_tree]
    rfl
  | single s =>
    rw [Signature.tree, xml_choice (by decide +kernel)]
    exact Signer.xml_tree _ _

theorem Dependency.xml_tree (x : Dependency) : xml x.tree (.child "dependency") = x.writeXml := by
  rcases x with ⟨r, _ | ⟨d, l⟩⟩ <;>
    xml_simp [Dependency.tree, Dependency.writeXml, Dependency.fields, reduceCtorEq] <;> try rfl

theorem Composition.xml_tree (v : SpecVersion) (x : Composition) : xml (x.at v).tree (.child "composition") = Composition.writeXml v x := by
  cases v <;>
    xml_simp [Composition.tree, Composition.fields, Composition.writeXml, Composition.at, Signature.xml_tree] <;> try rfl

theorem IdentifiableAction.xml_tree (tag : String) (x : IdentifiableAction) : xml x.tree (.child tag) = IdentifiableAction.writeXml tag x := by
  xml_simp [IdentifiableAction.tree, IdentifiableAction.fields, IdentifiableAction.writeXml] <;> try rfl

theorem Commit.xml_tree (x : Commit) : xml x.tree (.child "commit") = Commit.writeXml x := by
  xml_simp [Commit.tree, Commit.fields, Commit.writeXml, IdentifiableAction.xml_tree] <;> try rfl

theorem Diff.xml_tree (x : Diff) : xml x.tree (.child "diff") = Diff.writeXml x := by
  xml_simp [Diff.tree, Diff.fields, Diff.writeXml, AttachedText.xml_tree] <;> try rfl

theorem Diff.xml_if (x : Diff) : xml x.tree (.childIf ["text", "url"] "diff") =
    if Diff.willWrite x then Diff.writeXml x else [] := by
  have h := Diff.xml_tree x
  unfold Diff.tree at h ⊢
  rw [xml_mk_if, h]
  congr 1
  simp [or_assoc, Diff.willWrite]

theorem Source.xml_tree (x : Source) : xml x.tree (.child "source") = Source.writeXml x := by
  xml_simp [Source.tree, Source.fields, Source.writeXml] <;> try rfl

theorem Source.xml_if (x : Source) : xml x.tree (.childIf ["name", "url"] "source") =
    if Source.willWrite x then Source.writeXml x else [] := by
  have h := Source.xml_tree x
  unfold Source.tree at h ⊢
  rw [xml_mk_if, h]
  congr 1
  simp [or_assoc, Source.willWrite]

theorem Issue.xml_tree (x : Issue) : xml x.tree (.child "issue") = Issue.writeXml x := by
  xml_simp [Issue.tree, Issue.fields, Issue.writeXml, Source.xml_tree, Source.xml_if] <;> try rfl

theorem Patch.xml_tree (x : Patch) : xml x.tree (.child "patch") = Patch.writeXml x := by
  xml_simp [Patch.tree, Patch.fields, Patch.writeXml, Diff.xml_tree, Diff.xml_if, Issue.xml_tree] <;> try rfl

theorem VulnerabilityAnalysis.xml_tree (v : SpecVersion) (x : VulnerabilityAnalysis) : xml (x.at v).tree (.child "analysis") = VulnerabilityAnalysis.writeXml v x := by
  cases v <;>
    xml_simp [VulnerabilityAnalysis.tree, VulnerabilityAnalysis.fields, VulnerabilityAnalysis.writeXml, VulnerabilityAnalysis.at] <;> try rfl

theorem TargetVersion.xml_tree (x : TargetVersion) : xml x.tree (.child "version") = x.writeXml := by
  rcases x with ⟨_ | _ | _, s⟩ <;>
    xml_simp [TargetVersion.tree, TargetVersion.writeXml, TargetVersion.fields_version, TargetVersion.fields_range, TargetVersion.fields_undefinedVersionRange, VersionRange.field,
      VersionRange.writeXml] <;> try rfl

theorem VulnerabilityTarget.xml_tree (x : VulnerabilityTarget) : xml x.tree (.child "target") = VulnerabilityTarget.writeXml x := by
  xml_simp [VulnerabilityTarget.tree, VulnerabilityTarget.fields, VulnerabilityTarget.writeXml, TargetVersion.xml_tree] <;> try rfl

theorem License.xml_tree (v : SpecVersion) (x : License) : xml (x.at v).tree (.child "license") = x.writeXml v := by
  rcases x with ⟨a, _ | _, c, d, e, f⟩ <;> cases v <;>
    xml_simp [License.tree, License.at, License.writeXml, License.fields_spdxId, License.fields_name, LicenseIdentifier.field,
      LicenseIdentifier.writeXml, AttachedText.xml_tree, Property.xml_tree] <;> try rfl

theorem SpdxExpression.xml_tree (x : SpdxExpression) : xml x.tree (.child "expression") = SpdxExpression.writeXml x := by
  xml_simp [SpdxExpression.tree, SpdxExpression.fields, SpdxExpression.writeXml] <;> try rfl

theorem LicenseChoice.xml_tree (v : SpecVersion) (x : LicenseChoice) :
    xml (x.at v).tree (.child "license") = x.writeXml v := by
  cases x with
  | license l =>
    rw [LicenseChoice.at, LicenseChoice.tree, xml_choice (by decide +kernel)]
    exact License.xml_tree v l
  | expression e =>
    rw [LicenseChoice.at, LicenseChoice.tree, xml_named (tag := "expression") (by decide +kernel)]
    exact SpdxExpression.xml_tree e

theorem Licenses.xml_tree (v : SpecVersion) (x : Licenses) :
    xml (x.at v).tree (.list "licenses" (.child "license")) = Licenses.writeXml v x := by
  rw [Licenses.tree, xml_list, Licenses.at, Licenses.writeXml]
  unfold writeList
  rw [List.flatMap_map]
  simp only [LicenseChoice.xml_tree]

theorem VulnerabilityRating.xml_tree (x : VulnerabilityRating) : xml x.tree (.child "rating") = VulnerabilityRating.writeXml x := by
  xml_simp [VulnerabilityRating.tree, VulnerabilityRating.fields, VulnerabilityRating.writeXml, VulnerabilitySource.xml_tree] <;> try rfl

theorem Copyright.xml_tree (s : String) : xml (Copyright.tree s) (.child "text") = writeCdata "text" s := by
  show xml (.mk "Copyright" [("text", some (.text s))]) _ = _
  xml_simp [Copyright.fields]
  rfl

theorem ComponentEvidence.xml_tree (v : SpecVersion) (x : ComponentEvidence) : xml (x.at v).tree (.child "evidence") = ComponentEvidence.writeXml v x := by
  cases v <;>
    xml_simp [ComponentEvidence.tree, ComponentEvidence.fields, ComponentEvidence.writeXml, ComponentEvidence.at, Licenses.xml_tree, Copyright.xml_tree] <;> try rfl

theorem ComponentEvidence.xml_if (v : SpecVersion) (x : ComponentEvidence) : xml (x.at v).tree (.childIf ["licenses", "copyright"] "evidence") =
    if ComponentEvidence.willWrite x then ComponentEvidence.writeXml v x else [] := by
  have h := ComponentEvidence.xml_tree v x
  unfold ComponentEvidence.tree at h ⊢
  rw [xml_mk_if, h]
  congr 1
  simp [or_assoc, ComponentEvidence.willWrite, ComponentEvidence.at]

theorem DataGovernanceResponsibleParty.xml_tree (tag : String) (x : DataGovernanceResponsibleParty) :
    xml x.tree (.child tag) = x.writeXml tag := by
  cases x with
  | organization y =>
    rw [DataGovernanceResponsibleParty.tree, xml_inside (inner := .child "organization") (by decide +kernel)]
    rw [OrganizationalEntity.xml_tree]
    rfl
  | contact y =>
    rw [DataGovernanceResponsibleParty.tree, xml_inside (inner := .child "contact") (by decide +kernel)]
    rw [OrganizationalContact.xml_tree]
    rfl

theorem DataGovernance.xml_tree (tag : String) (x : DataGovernance) : xml x.tree (.child tag) = DataGovernance.writeXml tag x := by
  xml_simp [DataGovernance.tree, DataGovernance.fields, DataGovernance.writeXml, DataGovernanceResponsibleParty.xml_tree] <;> try rfl

theorem Attachment.xml_tree (tag : String) (x : Attachment) : xml x.tree (.child tag) = Attachment.writeXml tag x := by
  xml_simp [Attachment.tree, Attachment.fields, Attachment.writeXml] <;> try rfl

theorem Graphic.xml_tree (x : Graphic) : xml x.tree (.child "graphic") = Graphic.writeXml x := by
  xml_simp [Graphic.tree, Graphic.fields, Graphic.writeXml, Attachment.xml_tree] <;> try rfl

theorem GraphicsCollection.xml_tree (tag : String) (x : GraphicsCollection) : xml x.tree (.child tag) = GraphicsCollection.writeXml tag x := by
  xml_simp [GraphicsCollection.tree, GraphicsCollection.fields, GraphicsCollection.writeXml, Graphic.xml_tree] <;> try rfl

theorem DataContents.xml_tree (x : DataContents) : xml x.tree (.child "contents") = DataContents.writeXml x := by
  xml_simp [DataContents.tree, DataContents.fields, DataContents.writeXml, Attachment.xml_tree, Property.xml_tree] <;> try rfl

theorem ComponentData.xml_tree (tag : String) (x : ComponentData) : xml x.tree (.child tag) = ComponentData.writeXml tag x := by
  xml_simp [ComponentData.tree, ComponentData.fields, ComponentData.writeXml, DataContents.xml_tree, GraphicsCollection.xml_tree, DataGovernance.xml_tree] <;> try rfl

theorem ModelParametersApproach.xml_tree (x : ModelParametersApproach) : xml x.tree (.child "approach") = ModelParametersApproach.writeXml x := by
  xml_simp [ModelParametersApproach.tree, ModelParametersApproach.fields, ModelParametersApproach.writeXml] <;> try rfl

theorem Dataset.xml_tree (x : Dataset) : xml x.tree (.child "dataset") = x.writeXml := by
  cases x with
  | component y =>
    rw [Dataset.tree, xml_choice (by decide +kernel)]
    exact ComponentData.xml_tree "dataset" y
  | reference r =>
    rw [Dataset.tree, xml_inside (inner := .child "ref") (by decide +kernel)]
    rw [xml_text]
    rfl

theorem MLParameter.xml_tree (tag : String) (x : MLParameter) : xml x.tree (.child tag) = MLParameter.writeXml tag x := by
  xml_simp [MLParameter.tree, MLParameter.fields, MLParameter.writeXml] <;> try rfl

theorem ModelParameters.xml_tree (x : ModelParameters) : xml x.tree (.child "modelParameters") = ModelParameters.writeXml x := by
  xml_simp [ModelParameters.tree, ModelParameters.fields, ModelParameters.writeXml, ModelParametersApproach.xml_tree, Dataset.xml_tree, MLParameter.xml_tree] <;> try rfl

theorem ConfidenceInterval.xml_tree (x : ConfidenceInterval) : xml x.tree (.child "confidenceInterval") = ConfidenceInterval.writeXml x := by
  xml_simp [ConfidenceInterval.tree, ConfidenceInterval.fields, ConfidenceInterval.writeXml] <;> try rfl

theorem PerformanceMetric.xml_tree (x : PerformanceMetric) : xml x.tree (.child "performanceMetric") = PerformanceMetric.writeXml x := by
  xml_simp [PerformanceMetric.tree, PerformanceMetric.fields, PerformanceMetric.writeXml, ConfidenceInterval.xml_tree] <;> try rfl

theorem QuantitativeAnalysis.xml_tree (x : QuantitativeAnalysis) : xml x.tree (.child "quantitativeAnalysis") = QuantitativeAnalysis.writeXml x := by
  xml_simp [QuantitativeAnalysis.tree, QuantitativeAnalysis.fields, QuantitativeAnalysis.writeXml, PerformanceMetric.xml_tree, GraphicsCollection.xml_tree] <;> try rfl

theorem Considerations.xml_tree (x : Considerations) : xml x.tree (.child "considerations") = x.writeXml := by
  show xml (.mk "Considerations" []) _ = _
  rw [Considerations.fields]
  rfl

theorem ModelCard.xml_tree (x : ModelCard) : xml x.tree (.child "modelCard") = ModelCard.writeXml x := by
  xml_simp [ModelCard.tree, ModelCard.fields, ModelCard.writeXml, ModelParameters.xml_tree, QuantitativeAnalysis.xml_tree, Considerations.xml_tree, Property.xml_tree] <;> try rfl

theorem DataClassification.xml_tree (x : DataClassification) : xml x.tree (.child "classification") = DataClassification.writeXml x := by
  xml_simp [DataClassification.tree, DataClassification.fields, DataClassification.writeXml] <;> try rfl

theorem ServiceData.xml_tree (x : ServiceData) : xml x.tree (.child "dataflow") = ServiceData.writeXml x := by
  xml_simp [ServiceData.tree, ServiceData.fields, ServiceData.writeXml, DataGovernance.xml_tree, DataClassification.xml_tree] <;> try rfl

theorem ServiceDataChoice.xml_tree (v : SpecVersion) (x : ServiceDataChoice) :
    xml (x.at v).tree (.child "data") = x.writeXml v := by
  have hc : ∀ l, xml (ServiceDataChoice.classification l).tree (.child "data") =
      writeElem "data" [] (l.flatMap DataClassification.writeXml) := by
    intro l
    rw [ServiceDataChoice.tree, xml_inside (inner := .each (.child "classification")) (by decide +kernel)]
    simp only [xml_each, DataClassification.xml_tree]
  have hs : ∀ l, xml (ServiceDataChoice.serviceData l).tree (.child "data") =
      writeElem "data" [] (l.flatMap ServiceData.writeXml) := by
    intro l
    rw [ServiceDataChoice.tree, xml_inside (inner := .each (.child "dataflow")) (by decide +kernel)]
    simp only [xml_each, ServiceData.xml_tree]
  cases x with
  | classification l => exact hc l
  | serviceData l => cases v <;> first | exact hc _ | exact hs l

theorem Swid.xml_tree (x : Swid) : xml x.tree (.child "swid") = Swid.writeXml x := by
  xml_simp [Swid.tree, Swid.fields, Swid.writeXml, AttachedText.xml_tree] <;> try rfl

theorem Lifecycle.xml_tree (x : Lifecycle) : xml x.tree (.child "lifecycle") = x.writeXml := by
  cases x with
  | phase p =>
    rw [Lifecycle.tree, xml_inside (inner := .child "phase") (by decide +kernel)]
    rw [xml_name]
    rfl
  | description d =>
    rw [Lifecycle.tree, xml_choice (by decide +kernel)]
    show xml d.tree (.child "lifecycle") = _
    xml_simp [LifecycleDescription.tree, LifecycleDescription.fields, Lifecycle.writeXml]

mutual

theorem Component.xml_treeOpt (v : SpecVersion) (tag : String) : ∀ x : Option (List Component),
    xmlOpt (Component.treeOpt (Component.atOpt v x)) (.list tag (.child "component")) = Component.writeXmlOpt v tag x
  | none => rfl
  | some l => by
    simp only [Component.atOpt, Component.treeOpt, opt_some, xml, Component.writeXmlOpt, Component.xml_treeAll v l]
    rfl
termination_by structural x => x

theorem Component.xml_treeAll (v : SpecVersion) : ∀ l : List Component,
    xmlItems (Component.treeAll (Component.atAll v l)) (.child "component") = Component.writeXmlAll v l
  | [] => rfl
  | x :: l => by
    simp only [Component.atAll, Component.treeAll, xmlItems, Component.writeXmlAll, Component.xml_tree v x, Component.xml_treeAll v l]
termination_by structural l => l

theorem Component.xml_tree (v : SpecVersion) : ∀ x : Component, xml (x.at v).tree (.child "component") = x.writeXml v
  | ⟨componentType, mimeType, bomRef, supplier, author, publisher, group, name, version, description, scope, hashes, licenses, copyright, cpe, purl, swid, modified, pedigree, externalReferences, properties, components, evidence, signature, modelCard, data⟩ => by
    have o0 := Pedigree.xml_treeOpt v pedigree
    have o1 := Component.xml_treeOpt v "components" components
    cases v <;>
      xml_simp [Component.tree, Component.at, Component.writeXml, Component.fields,
        OrganizationalEntity.xml_tree, OrganizationalEntity.xml_if, Hash.xml_tree, Licenses.xml_tree, Swid.xml_tree, ExternalReference.xml_tree, Property.xml_tree, ComponentEvidence.xml_tree, ComponentEvidence.xml_if, Signature.xml_tree, ModelCard.xml_tree, ComponentData.xml_tree, o0, o1] <;>
    try rfl
termination_by structural x => x

theorem Pedigree.xml_treeOpt (v : SpecVersion) : ∀ x : Option Pedigree,
    xmlOpt (Pedigree.treeOpt (Pedigree.atOpt v x)) (.child "pedigree") = Pedigree.writeXmlOpt v x
  | none => rfl
  | some x => by
    simp only [Pedigree.atOpt, Pedigree.treeOpt, opt_some, Pedigree.writeXmlOpt, Pedigree.xml_tree v x]
termination_by structural x => x

theorem Pedigree.xml_tree (v : SpecVersion) : ∀ x : Pedigree, xml (x.at v).tree (.child "pedigree") = x.writeXml v
  | ⟨ancestors, descendants, variants, commits, patches, notes⟩ => by
    have o0 := Component.xml_treeOpt v "ancestors" ancestors
    have o1 := Component.xml_treeOpt v "descendants" descendants
    have o2 := Component.xml_treeOpt v "variants" variants
    cases v <;>
      xml_simp [Pedigree.tree, Pedigree.at, Pedigree.writeXml, Pedigree.fields,
        Commit.xml_tree, Patch.xml_tree, o0, o1, o2] <;>
    try rfl
termination_by structural x => x

end

mutual

theorem Service.xml_treeOpt (v : SpecVersion) (tag : String) : ∀ x : Option (List Service),
    xmlOpt (Service.treeOpt (Service.atOpt v x)) (.list tag (.child "service")) = Service.writeXmlOpt v tag x
  | none => rfl
  | some l => by
    simp only [Service.atOpt, Service.treeOpt, opt_some, xml, Service.writeXmlOpt, Service.xml_treeAll v l]
    rfl
termination_by structural x => x

theorem Service.xml_treeAll (v : SpecVersion) : ∀ l : List Service,
    xmlItems (Service.treeAll (Service.atAll v l)) (.child "service") = Service.writeXmlAll v l
  | [] => rfl
  | x :: l => by
    simp only [Service.atAll, Service.treeAll, xmlItems, Service.writeXmlAll, Service.xml_tree v x, Service.xml_treeAll v l]
termination_by structural l => l

theorem Service.xml_tree (v : SpecVersion) : ∀ x : Service, xml (x.at v).tree (.child "service") = x.writeXml v
  | ⟨bomRef, provider, group, name, version, description, endpoints, authenticated, xTrustBoundary, data, licenses, externalReferences, properties, services, signature, trustZone⟩ => by
    have o0 := Service.xml_treeOpt v "services" services
    cases v <;>
      xml_simp [Service.tree, Service.at, Service.writeXml, Service.fields,
        OrganizationalEntity.xml_tree, OrganizationalEntity.xml_if, ServiceDataChoice.xml_tree, Licenses.xml_tree, ExternalReference.xml_tree, Property.xml_tree, Signature.xml_tree, o0] <;>
    try rfl
termination_by structural x => x

end

theorem Tool.xml_tree (v : SpecVersion) (x : Tool) : xml (x.at v).tree (.child "tool") = Tool.writeXml v x := by
  cases v <;>
    xml_simp [Tool.tree, Tool.fields, Tool.writeXml, Tool.at, Hash.xml_tree, ExternalReference.xml_tree] <;> try rfl

theorem Tools.xml_tree (v : SpecVersion) (x : Tools) : xml (x.at v).tree (.child "tools") = x.writeXml v := by
  have hl : ∀ l, xml (Tools.list l).tree (.child "tools") = writeElem "tools" [] (l.flatMap fun t => xml t.tree (.child "tool")) := by
    intro l
    rw [Tools.tree, xml_inside (inner := .each (.child "tool")) (by decide +kernel)]
    rw [xml_each]
  have ho : ∀ s c, xml (Tools.object s c).tree (.child "tools") = writeElem "tools" []
      (writeOpt (writeList "services" fun y => xml y.tree (.child "service")) s ++
        writeOpt (writeList "components" fun y => xml y.tree (.child "component")) c) := by
    intro s c
    rw [Tools.tree, xml_choice (by decide +kernel)]
    show xml (.mk "Tools" _) (.child "tools") = _
    xml_simp [Tools.fields] <;> try rfl
  cases x with
  | list l =>
    rw [Tools.at, hl, List.flatMap_map]
    simp only [Tool.xml_tree]
    rfl
  | object s c =>
    cases v
    · exact hl []
    · exact hl []
    · show xml (Tools.object _ _).tree _ = _
      rw [ho]
      cases s <;> cases c <;>
        simp only [Option.map_some, Option.map_none, Tools.writeXml, since15, writeOpt, writeList, List.flatMap_map,
          Service.xml_tree, Component.xml_tree]

theorem Metadata.xml_tree (v : SpecVersion) (x : Metadata) : xml (x.at v).tree (.child "metadata") = Metadata.writeXml v x := by
  cases v <;>
    xml_simp [Metadata.tree, Metadata.fields, Metadata.writeXml, Metadata.at, Tools.xml_tree, OrganizationalContact.xml_tree, OrganizationalContact.xml_if, Component.xml_tree, OrganizationalEntity.xml_tree, OrganizationalEntity.xml_if, Licenses.xml_tree, Property.xml_tree, Lifecycle.xml_tree] <;> try rfl

theorem Vulnerability.xml_tree (v : SpecVersion) (x : Vulnerability) : xml (x.at v).tree (.child "vulnerability") = Vulnerability.writeXml v x := by
  cases v <;>
    xml_simp [Vulnerability.tree, Vulnerability.fields, Vulnerability.writeXml, Vulnerability.at, VulnerabilitySource.xml_tree, VulnerabilityReference.xml_tree, VulnerabilityRating.xml_tree, Advisory.xml_tree, VulnerabilityCredits.xml_tree, Tools.xml_tree, VulnerabilityAnalysis.xml_tree, VulnerabilityTarget.xml_tree, Property.xml_tree] <;> try rfl

theorem ResourceReference.xml_tree (tag : String) (x : ResourceReference) :
    xml x.tree (.child tag) = x.writeXml tag := by
  cases x with
  | ref r =>
    rw [ResourceReference.tree, xml_inside (inner := .child "ref") (by decide +kernel)]
    rw [xml_text]
    rfl
  | externalReference y =>
    rw [ResourceReference.tree, xml_inside (inner := .child "reference") (by decide +kernel)]
    rw [ExternalReference.xml_tree]
    rfl

theorem EnvironmentVar.xml_tree (x : EnvironmentVar) : xml x.tree (.child "environmentVar") = x.writeXml := by
  cases x with
  | property n s =>
    rw [EnvironmentVar.tree, xml_choice (by decide +kernel)]
    show xml (.mk "EnvironmentVar" [("name", some (.text n)), ("value", some (.text s))]) (.child "environmentVar") = _
    xml_simp [EnvironmentVar.fields]
    rfl
  | value s =>
    rw [EnvironmentVar.tree, xml_named (tag := "value") (by decide +kernel)]
    exact xml_text s "value"

theorem Parameter.xml_tree (x : Parameter) : xml x.tree (.child "parameter") = Parameter.writeXml x := by
  xml_simp [Parameter.tree, Parameter.fields, Parameter.writeXml] <;> try rfl

theorem Input.xml_tree (x : Input) : xml x.tree (.child "input") = x.writeXml := by
  rcases x with ⟨_ | _ | _ | _, a, b, c⟩ <;>
    xml_simp [Input.tree, Input.writeXml, Input.fields_resource, Input.fields_parameters, Input.fields_environmentVars, Input.fields_data, RequiredInputField.field, RequiredInputField.writeXml,
      ResourceReference.xml_tree, Parameter.xml_tree, EnvironmentVar.xml_tree, Attachment.xml_tree, Property.xml_tree] <;> try rfl

theorem Output.xml_tree (x : Output) : xml x.tree (.child "output") = x.writeXml := by
  rcases x with ⟨_ | _ | _, a, b, c, d⟩ <;>
    xml_simp [Output.tree, Output.writeXml, Output.fields_resource, Output.fields_environmentVars, Output.fields_data, RequiredOutputField.field, RequiredOutputField.writeXml,
      ResourceReference.xml_tree, EnvironmentVar.xml_tree, Attachment.xml_tree, Property.xml_tree] <;> try rfl

theorem Command.xml_tree (x : Command) : xml x.tree (.child "command") = Command.writeXml x := by
  xml_simp [Command.tree, Command.fields, Command.writeXml, Property.xml_tree] <;> try rfl

theorem Step.xml_tree (x : Step) : xml x.tree (.child "step") = Step.writeXml x := by
  xml_simp [Step.tree, Step.fields, Step.writeXml, Command.xml_tree, Property.xml_tree] <;> try rfl

theorem TriggerEvent.xml_tree (x : TriggerEvent) : xml x.tree (.child "event") = TriggerEvent.writeXml x := by
  xml_simp [TriggerEvent.tree, TriggerEvent.fields, TriggerEvent.writeXml, Attachment.xml_tree, ResourceReference.xml_tree, Property.xml_tree] <;> try rfl

theorem Condition.xml_tree (x : Condition) : xml x.tree (.child "condition") = Condition.writeXml x := by
  xml_simp [Condition.tree, Condition.fields, Condition.writeXml, Property.xml_tree] <;> try rfl

theorem Trigger.xml_tree (x : Trigger) : xml x.tree (.child "trigger") = Trigger.writeXml x := by
  xml_simp [Trigger.tree, Trigger.fields, Trigger.writeXml, ResourceReference.xml_tree, TriggerEvent.xml_tree, Condition.xml_tree, Input.xml_tree, Output.xml_tree, Property.xml_tree] <;> try rfl

theorem Volume.xml_tree (x : Volume) : xml x.tree (.child "volume") = Volume.writeXml x := by
  xml_simp [Volume.tree, Volume.fields, Volume.writeXml, Property.xml_tree] <;> try rfl

theorem Workspace.xml_tree (x : Workspace) : xml x.tree (.child "workspace") = Workspace.writeXml x := by
  xml_simp [Workspace.tree, Workspace.fields, Workspace.writeXml, ResourceReference.xml_tree, Volume.xml_tree, Property.xml_tree] <;> try rfl

theorem WorkflowTask.xml_tree (x : WorkflowTask) : xml x.tree (.child "task") = WorkflowTask.writeXml x := by
  xml_simp [WorkflowTask.tree, WorkflowTask.fields, WorkflowTask.writeXml, ResourceReference.xml_tree, Trigger.xml_tree, Step.xml_tree, Input.xml_tree, Output.xml_tree, Workspace.xml_tree, Dependency.xml_tree, Property.xml_tree] <;> try rfl

theorem Workflow.xml_tree (x : Workflow) : xml x.tree (.child "workflow") = Workflow.writeXml x := by
  xml_simp [Workflow.tree, Workflow.fields, Workflow.writeXml, ResourceReference.xml_tree, WorkflowTask.xml_tree, Dependency.xml_tree, Trigger.xml_tree, Step.xml_tree, Input.xml_tree, Output.xml_tree, Workspace.xml_tree, Property.xml_tree] <;> try rfl

theorem Formula.xml_tree (v : SpecVersion) (x : Formula) : xml (x.at v).tree (.child "formula") = Formula.writeXml v x := by
  cases v <;>
    xml_simp [Formula.tree, Formula.fields, Formula.writeXml, Formula.at, Component.xml_tree, Service.xml_tree, Workflow.xml_tree, Property.xml_tree] <;> try rfl

theorem Bom.xml_tree (v : SpecVersion) (x : Bom) : xml (x.at v).tree (.child "bom") = Bom.writeXml v x := by
  cases v <;>
    xml_simp [Bom.tree, Bom.fields, Bom.writeXml, Bom.at, Metadata.xml_tree, Component.xml_tree, Service.xml_tree, ExternalReference.xml_tree, Dependency.xml_tree, Composition.xml_tree, Vulnerability.xml_tree, Signature.xml_tree, Property.xml_tree, Formula.xml_tree] <;> try rfl

end Cdx
