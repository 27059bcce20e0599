import Verif.Lemmas.Xml
import Verif.Lemmas.Json
import Verif.Spec.Format.Component
import Verif.Lemmas.Format.Evidence

set_option linter.unusedSectionVars false
set_option linter.unusedSimpArgs false
set_option linter.unusedVariables false

/-!
# Lemmas on the file formats: components
-/

namespace Cdx

variable [F32Format]

theorem Component.toJsonAll_eq (v : SpecVersion) : ∀ l, Component.toJsonAll v l = l.map (Component.toJson v)
  | [] => by rw [Component.toJsonAll, List.map_nil]
  | x :: l => by rw [Component.toJsonAll, Component.toJsonAll_eq v l, List.map_cons]

theorem Component.toJsonOpt_eq (v : SpecVersion) : ∀ l,
    Component.toJsonOpt v l = l.map (Json.ofList (Component.toJson v))
  | none => by rw [Component.toJsonOpt, Option.map_none]
  | some l => by rw [Component.toJsonOpt, Component.toJsonAll_eq, Option.map_some, Json.ofList]

theorem Component.writeXmlAll_eq (v : SpecVersion) : ∀ l,
    Component.writeXmlAll v l = l.flatMap (Component.writeXml v)
  | [] => by rw [Component.writeXmlAll, List.flatMap_nil]
  | x :: l => by rw [Component.writeXmlAll, Component.writeXmlAll_eq v l, List.flatMap_cons]

theorem Component.writeXmlOpt_eq (v : SpecVersion) (tag : String) : ∀ l,
    Component.writeXmlOpt v tag l = writeOpt (writeList tag (Component.writeXml v)) l
  | none => by rw [Component.writeXmlOpt, writeOpt]
  | some l => by rw [Component.writeXmlOpt, Component.writeXmlAll_eq, writeOpt, writeList]

theorem Component.atAll_eq (v : SpecVersion) : ∀ l, Component.atAll v l = l.map (Component.at v)
  | [] => by rw [Component.atAll, List.map_nil]
  | x :: l => by rw [Component.atAll, Component.atAll_eq v l, List.map_cons]

theorem Component.atOpt_eq (v : SpecVersion) : ∀ l, Component.atOpt v l = l.map (List.map (Component.at v))
  | none => by rw [Component.atOpt, Option.map_none]
  | some l => by rw [Component.atOpt, Component.atAll_eq, Option.map_some]

theorem Pedigree.toJsonOpt_eq (v : SpecVersion) : ∀ x,
    Pedigree.toJsonOpt v x = x.map (Pedigree.toJson v)
  | none => by rw [Pedigree.toJsonOpt, Option.map_none]
  | some x => by rw [Pedigree.toJsonOpt, Option.map_some]

theorem Pedigree.writeXmlOpt_eq (v : SpecVersion) : ∀ x,
    Pedigree.writeXmlOpt v x = writeOpt (Pedigree.writeXml v) x
  | none => by rw [Pedigree.writeXmlOpt, writeOpt]
  | some x => by rw [Pedigree.writeXmlOpt, writeOpt]

omit [F32Format] in
theorem Pedigree.atOpt_eq (v : SpecVersion) : ∀ x, Pedigree.atOpt v x = x.map (Pedigree.at v)
  | none => by rw [Pedigree.atOpt, Option.map_none]
  | some x => by rw [Pedigree.atOpt, Option.map_some]

/-- The components directly in a pedigree. -/
def Pedigree.children (x : Pedigree) : List Component :=
  x.ancestors.getD [] ++ (x.descendants.getD [] ++ x.variants.getD [])

/-- The components directly in a component, or in its pedigree. -/
def Component.children (x : Component) : List Component :=
  x.components.getD [] ++ (x.pedigree.map Pedigree.children).getD []

omit [F32Format] in
theorem Pedigree.mem_ancestors {x : Pedigree} {y : Component} {l : List Component}
    (h : x.ancestors = some l) (hy : y ∈ l) : y ∈ x.children := by
  simp [Pedigree.children, h, hy]

omit [F32Format] in
theorem Pedigree.mem_descendants {x : Pedigree} {y : Component} {l : List Component}
    (h : x.descendants = some l) (hy : y ∈ l) : y ∈ x.children := by
  simp [Pedigree.children, h, hy]

omit [F32Format] in
theorem Pedigree.mem_variants {x : Pedigree} {y : Component} {l : List Component}
    (h : x.variants = some l) (hy : y ∈ l) : y ∈ x.children := by
  simp [Pedigree.children, h, hy]

omit [F32Format] in
theorem Component.mem_components {x y : Component} {l : List Component}
    (h : x.components = some l) (hy : y ∈ l) : y ∈ x.children := by
  simp [Component.children, h, hy]

omit [F32Format] in
theorem Component.mem_pedigree {x y : Component} {p : Pedigree}
    (h : x.pedigree = some p) (hy : y ∈ p.children) : y ∈ x.children := by
  simp [Component.children, h, hy]

omit [F32Format] in
theorem sizeOf_mem_getD {α : Type} [SizeOf α] {l : Option (List α)} {y : α} (h : y ∈ l.getD []) :
    sizeOf y < sizeOf l := by
  cases l with
  | none => simp at h
  | some l =>
    have := List.sizeOf_lt_of_mem (as := l) h
    simp
    omega

omit [F32Format] in
theorem Pedigree.sizeOf_children {x : Pedigree} {y : Component} (hy : y ∈ x.children) :
    sizeOf y < sizeOf x := by
  obtain ⟨a, d, w, c, p, n⟩ := x
  simp only [Pedigree.children, List.mem_append] at hy
  simp only [Pedigree.mk.sizeOf_spec]
  rcases hy with h | h | h <;> have := sizeOf_mem_getD h <;> omega

omit [F32Format] in
theorem Component.sizeOf_children {x y : Component} (hy : y ∈ x.children) :
    sizeOf y < sizeOf x := by
  cases x with
  | mk t m b s a pu g n v d sc hs ls co cpe purl sw mo pe er pr cs e si mc da =>
    simp only [Component.children, List.mem_append] at hy
    simp only [Component.mk.sizeOf_spec]
    rcases hy with h | h
    · have := sizeOf_mem_getD h
      omega
    · cases pe with
      | none => simp at h
      | some p =>
        have := Pedigree.sizeOf_children (x := p) h
        simp
        omega

omit [F32Format] in
theorem Component.ind {P : Component → Prop} (h : ∀ x, (∀ y ∈ x.children, P y) → P x)
    (x : Component) : P x :=
  h x fun y hy => Component.ind h y
termination_by sizeOf x
decreasing_by exact Component.sizeOf_children hy

omit [F32Format] in
theorem Json.need_id {α : Type} {l : List (String × Option Json)} {k : String}
    {f : Json → Except String α} {g : α → Json} {x : Option α} (hn : (l.map (·.1)).Nodup)
    (hl : (k, x.map g) ∈ l) (hx : x ≠ none) (h : ∀ y, f (g y) = .ok y) :
    (Json.req (Json.mkFields l) k f).map some = .ok x := by
  cases x with
  | none => exact absurd rfl hx
  | some y =>
    rw [Json.req_mk hn hl (h y)]
    rfl

omit [F32Format] in
theorem required_some {α : Type} {field : String} {el : XName} {x : Option α} (hx : x ≠ none) :
    (required field el x).map some = .ok x := by
  cases x with
  | none => exact absurd rfl hx
  | some y => rfl

theorem Pedigree.toJson_eq (v : SpecVersion) (x : Pedigree) : Pedigree.toJson v x =
  .mk [("ancestors", x.ancestors.map (Json.ofList (Component.toJson v))),
    ("descendants", x.descendants.map (Json.ofList (Component.toJson v))),
    ("variants", x.variants.map (Json.ofList (Component.toJson v))),
    ("commits", x.commits.map (Json.ofList Commit.toJson)),
    ("patches", x.patches.map (Json.ofList Patch.toJson)),
    ("notes", x.notes.map Json.str)] := by
  cases x
  rw [Pedigree.toJson]
  simp only [Component.toJsonOpt_eq]

theorem Pedigree.at_eq (v : SpecVersion) (x : Pedigree) : Pedigree.at v x =
  { x with ancestors := x.ancestors.map (List.map (Component.at v)),
           descendants := x.descendants.map (List.map (Component.at v)),
           variants := x.variants.map (List.map (Component.at v)) } := by
  cases x
  rw [Pedigree.at]
  simp only [Component.atOpt_eq]

theorem Pedigree.json_ne_null {v : SpecVersion} {x : Pedigree} :
    Pedigree.toJson v x ≠ .null := by
  rw [Pedigree.toJson_eq]
  exact Json.mk_ne_null _

theorem Pedigree.json_rtWith (v : SpecVersion) {x : Pedigree}
    {sub : Json → Except String Component} (h : Pedigree.JsonOkWith (fun y => sub (Component.toJson v y) = .ok (Component.at v y)) v x) :
    Pedigree.ofJsonWith sub v (Pedigree.toJson v x) = .ok (x.at v) := by
  rw [Pedigree.toJson_eq, Pedigree.at_eq]
  have hn : ["ancestors", "descendants", "variants", "commits", "patches", "notes"].Nodup := by decide
  refine bindOk (Json.fields_mk _) ?_
  refine bindOk (Json.opt_mk hn (.head _) (fun y692 hy692 => Json.ofList_ne_null)
      (fun y692 hy692 => Json.array_ofList (fun y693 hy693 => ((h.ancestors y692 hy692) y693 hy693)))) ?_
  refine bindOk (Json.opt_mk hn (.tail _ (.head _)) (fun y694 hy694 => Json.ofList_ne_null)
      (fun y694 hy694 => Json.array_ofList (fun y695 hy695 => ((h.descendants y694 hy694) y695 hy695)))) ?_
  refine bindOk (Json.opt_mk hn (.tail _ (.tail _ (.head _))) (fun y696 hy696 => Json.ofList_ne_null)
      (fun y696 hy696 => Json.array_ofList (fun y697 hy697 => ((h.variants y696 hy696) y697 hy697)))) ?_
  refine bindOk (Json.opt_id hn (.tail _ (.tail _ (.tail _ (.head _)))) (fun y698 hy698 => Json.ofList_ne_null)
      (fun y698 hy698 => Json.array_id (fun y699 hy699 => Commit.json_rt))) ?_
  refine bindOk (Json.opt_id hn (.tail _ (.tail _ (.tail _ (.tail _ (.head _))))) (fun y700 hy700 => Json.ofList_ne_null)
      (fun y700 hy700 => Json.array_id (fun y701 hy701 => Patch.json_rt ((h.patches y700 hy700) y701 hy701)))) ?_
  refine bindOk (Json.opt_id hn (.tail _ (.tail _ (.tail _ (.tail _ (.tail _ (.head _)))))) (fun y702 hy702 => Json.str_ne_null)
      (fun y702 hy702 => rfl)) ?_
  rfl

theorem Pedigree.writeXml_eq (v : SpecVersion) (x : Pedigree) : Pedigree.writeXml v x =
  writeElem "pedigree" [] (
    (writeOpt (writeList "ancestors" (Component.writeXml v)) x.ancestors) ++
    ((writeOpt (writeList "descendants" (Component.writeXml v)) x.descendants) ++
    ((writeOpt (writeList "variants" (Component.writeXml v)) x.variants) ++
    ((writeOpt (writeList "commits" Commit.writeXml) x.commits) ++
    ((writeOpt (writeList "patches" Patch.writeXml) x.patches) ++
    ((writeOpt (writeSimple "notes") x.notes))))))) := by
  cases x
  rw [Pedigree.writeXml]
  simp only [Component.writeXmlOpt_eq]

theorem Pedigree.xml_body_wfWith {loose : Bool} {v : SpecVersion} (hl : v = .v1_5 → loose = true) {x : Pedigree}
    (hs : ∀ y ∈ x.children, WellFormed loose (Component.writeXml v y)) : WellFormed loose (
    (writeOpt (writeList "ancestors" (Component.writeXml v)) x.ancestors) ++
    ((writeOpt (writeList "descendants" (Component.writeXml v)) x.descendants) ++
    ((writeOpt (writeList "variants" (Component.writeXml v)) x.variants) ++
    ((writeOpt (writeList "commits" Commit.writeXml) x.commits) ++
    ((writeOpt (writeList "patches" Patch.writeXml) x.patches) ++
    ((writeOpt (writeSimple "notes") x.notes))))))) :=
  (.append (writeOpt_wf fun _ q => writeList_wf fun y hy => hs y (Pedigree.mem_ancestors q hy))
    (.append (writeOpt_wf fun _ q => writeList_wf fun y hy => hs y (Pedigree.mem_descendants q hy))
    (.append (writeOpt_wf fun _ q => writeList_wf fun y hy => hs y (Pedigree.mem_variants q hy))
    (.append (writeOpt_wf fun _ _ => (writeList_wf fun _ _ => Commit.xml_wf))
    (.append (writeOpt_wf fun _ _ => (writeList_wf fun _ _ => Patch.xml_wf))
    (writeOpt_wf fun _ _ => writeSimple_wf))))))

theorem Pedigree.xml_oneWith {loose : Bool} {v : SpecVersion} (hl : v = .v1_5 → loose = true) {x : Pedigree}
    (hs : ∀ y ∈ x.children, WellFormed loose (Component.writeXml v y)) :
    OneElement loose "pedigree" (Pedigree.writeXml v x) :=
  Pedigree.writeXml_eq v x ▸ writeElem_one goodNil (Pedigree.xml_body_wfWith hl hs)

theorem Pedigree.xml_wfWith {loose : Bool} {v : SpecVersion} (hl : v = .v1_5 → loose = true) {x : Pedigree}
    (hs : ∀ y ∈ x.children, WellFormed loose (Component.writeXml v y)) :
    WellFormed loose (Pedigree.writeXml v x) :=
  (Pedigree.xml_oneWith hl hs).wf

theorem Pedigree.arms_localWith (v : SpecVersion) {sub : XElem Component}
    (hs : ∀ {t}, LocalAt t sub) :
    ∀ p ∈ Pedigree.armsWith sub v, LocalArm p.1 p.2 :=
  (armsCons (arm_local (readListLax_local hs) _)
    (armsCons (arm_local (readListLax_local hs) _)
    (armsCons (arm_local (readListLax_local hs) _)
    (armsCons (arm_local (readListLax_local Commit.xml_local) _)
    (armsCons (arm_local (readListLax_local Patch.xml_local) _)
    (armsCons (arm_local readSimple_local _)
    armsNil))))))

theorem Pedigree.xml_localWith (v : SpecVersion) {sub : XElem Component}
    (hs : ∀ {t}, LocalAt t sub) {tag : String} :
    LocalAt tag (Pedigree.readXmlWith sub v) :=
  readStruct_local (by simp) (Pedigree.arms_localWith v hs)

theorem Component.toJson_eq (v : SpecVersion) (x : Component) : Component.toJson v x =
  .mk ([("type", some ((Json.ofEnum Classification.display) x.componentType)),
    ("mime-type", x.mimeType.map Json.str),
    ("bom-ref", x.bomRef.map Json.str),
    ("supplier", x.supplier.map OrganizationalEntity.toJson),
    ("author", x.author.map Json.str),
    ("publisher", x.publisher.map Json.str),
    ("group", x.group.map Json.str),
    ("name", some (Json.str x.name)),
    ("version", x.version.map Json.str),
    ("description", x.description.map Json.str),
    ("scope", x.scope.map (Json.ofEnum Scope.display)),
    ("hashes", x.hashes.map (Json.ofList Hash.toJson)),
    ("licenses", x.licenses.map (Licenses.toJson v)),
    ("copyright", x.copyright.map Json.str),
    ("cpe", x.cpe.map Json.str),
    ("purl", x.purl.map Json.str),
    ("swid", x.swid.map Swid.toJson),
    ("modified", x.modified.map Json.bool),
    ("pedigree", x.pedigree.map (Pedigree.toJson v)),
    ("externalReferences", x.externalReferences.map (Json.ofList ExternalReference.toJson)),
    ("properties", x.properties.map (Json.ofList Property.toJson)),
    ("components", x.components.map (Json.ofList (Component.toJson v))),
    ("evidence", x.evidence.map (ComponentEvidence.toJson v))] ++
    since14 v [("signature", x.signature.map Signature.toJson)] [] ++
    since15 v [("modelCard", x.modelCard.map ModelCard.toJson),
    ("data", x.data.map ComponentData.toJson)] []) := by
  cases x
  rw [Component.toJson]
  simp only [Component.toJsonOpt_eq, Pedigree.toJsonOpt_eq]

theorem Component.at_eq (v : SpecVersion) (x : Component) : Component.at v x =
  { x with licenses := x.licenses.map (Licenses.at v),
           pedigree := x.pedigree.map (Pedigree.at v),
           components := x.components.map (List.map (Component.at v)),
           evidence := x.evidence.map (ComponentEvidence.at v),
           signature := since14 v x.signature none,
           modelCard := since15 v x.modelCard none,
           data := since15 v x.data none } := by
  cases x
  rw [Component.at]
  simp only [Component.atOpt_eq, Pedigree.atOpt_eq]

theorem Component.json_ne_null {v : SpecVersion} {x : Component} :
    Component.toJson v x ≠ .null := by
  rw [Component.toJson_eq]
  exact Json.mk_ne_null _

theorem Component.json_rtWith (v : SpecVersion) {x : Component}
    {sub : Json → Except String Component} (h : Component.JsonOkWith (fun y => sub (Component.toJson v y) = .ok (Component.at v y)) v x) :
    Component.ofJsonWith sub v (Component.toJson v x) = .ok (x.at v) := by
  rw [Component.toJson_eq, Component.at_eq]
  cases v with
  | v1_3 =>
    have hn : ["type", "mime-type", "bom-ref", "supplier", "author", "publisher", "group", "name", "version", "description", "scope", "hashes", "licenses", "copyright", "cpe", "purl", "swid", "modified", "pedigree", "externalReferences", "properties", "components", "evidence"].Nodup := by decide
    refine bindOk (Json.fields_mk _) ?_
    refine bindOk (Json.req_mk hn (.head _) (Json.enum_rt h.componentType)) ?_
    refine bindOk (Json.opt_id hn (.tail _ (.head _)) (fun y739 hy739 => Json.str_ne_null)
        (fun y739 hy739 => rfl)) ?_
    refine bindOk (Json.opt_id hn (.tail _ (.tail _ (.head _))) (fun y740 hy740 => Json.str_ne_null)
        (fun y740 hy740 => rfl)) ?_
    refine bindOk (Json.opt_id hn (.tail _ (.tail _ (.tail _ (.head _)))) (fun y741 hy741 => OrganizationalEntity.json_ne_null)
        (fun y741 hy741 => OrganizationalEntity.json_rt)) ?_
    refine bindOk (Json.opt_id hn (.tail _ (.tail _ (.tail _ (.tail _ (.head _))))) (fun y742 hy742 => Json.str_ne_null)
        (fun y742 hy742 => rfl)) ?_
    refine bindOk (Json.opt_id hn (.tail _ (.tail _ (.tail _ (.tail _ (.tail _ (.head _)))))) (fun y743 hy743 => Json.str_ne_null)
        (fun y743 hy743 => rfl)) ?_
    refine bindOk (Json.opt_id hn (.tail _ (.tail _ (.tail _ (.tail _ (.tail _ (.tail _ (.head _))))))) (fun y744 hy744 => Json.str_ne_null)
        (fun y744 hy744 => rfl)) ?_
    refine bindOk (Json.req_mk hn (.tail _ (.tail _ (.tail _ (.tail _ (.tail _ (.tail _ (.tail _ (.head _)))))))) (rfl)) ?_
    refine bindOk (Json.need_id hn (.tail _ (.tail _ (.tail _ (.tail _ (.tail _ (.tail _ (.tail _ (.tail _ (.head _))))))))) (h.version rfl) (fun _ => rfl)) ?_
    refine bindOk (Json.opt_id hn (.tail _ (.tail _ (.tail _ (.tail _ (.tail _ (.tail _ (.tail _ (.tail _ (.tail _ (.head _)))))))))) (fun y745 hy745 => Json.str_ne_null)
        (fun y745 hy745 => rfl)) ?_
    refine bindOk (Json.opt_id hn (.tail _ (.tail _ (.tail _ (.tail _ (.tail _ (.tail _ (.tail _ (.tail _ (.tail _ (.tail _ (.head _))))))))))) (fun y746 hy746 => Json.str_ne_null)
        (fun y746 hy746 => Json.enum_rt (h.scope y746 hy746))) ?_
    refine bindOk (Json.opt_id hn (.tail _ (.tail _ (.tail _ (.tail _ (.tail _ (.tail _ (.tail _ (.tail _ (.tail _ (.tail _ (.tail _ (.head _)))))))))))) (fun y747 hy747 => Json.ofList_ne_null)
        (fun y747 hy747 => Json.array_id (fun y748 hy748 => Hash.json_rt ((h.hashes y747 hy747) y748 hy748)))) ?_
    refine bindOk (Json.opt_mk hn (.tail _ (.tail _ (.tail _ (.tail _ (.tail _ (.tail _ (.tail _ (.tail _ (.tail _ (.tail _ (.tail _ (.tail _ (.head _))))))))))))) (fun y749 hy749 => Licenses.json_ne_null)
        (fun y749 hy749 => Licenses.json_rt .v1_3 (h.licenses y749 hy749))) ?_
    refine bindOk (Json.opt_id hn (.tail _ (.tail _ (.tail _ (.tail _ (.tail _ (.tail _ (.tail _ (.tail _ (.tail _ (.tail _ (.tail _ (.tail _ (.tail _ (.head _)))))))))))))) (fun y750 hy750 => Json.str_ne_null)
        (fun y750 hy750 => rfl)) ?_
    refine bindOk (Json.opt_id hn (.tail _ (.tail _ (.tail _ (.tail _ (.tail _ (.tail _ (.tail _ (.tail _ (.tail _ (.tail _ (.tail _ (.tail _ (.tail _ (.tail _ (.head _))))))))))))))) (fun y751 hy751 => Json.str_ne_null)
        (fun y751 hy751 => rfl)) ?_
    refine bindOk (Json.opt_id hn (.tail _ (.tail _ (.tail _ (.tail _ (.tail _ (.tail _ (.tail _ (.tail _ (.tail _ (.tail _ (.tail _ (.tail _ (.tail _ (.tail _ (.tail _ (.head _)))))))))))))))) (fun y752 hy752 => Json.str_ne_null)
        (fun y752 hy752 => rfl)) ?_
    refine bindOk (Json.opt_id hn (.tail _ (.tail _ (.tail _ (.tail _ (.tail _ (.tail _ (.tail _ (.tail _ (.tail _ (.tail _ (.tail _ (.tail _ (.tail _ (.tail _ (.tail _ (.tail _ (.head _))))))))))))))))) (fun y753 hy753 => Swid.json_ne_null)
        (fun y753 hy753 => Swid.json_rt (h.swid y753 hy753))) ?_
    refine bindOk (Json.opt_id hn (.tail _ (.tail _ (.tail _ (.tail _ (.tail _ (.tail _ (.tail _ (.tail _ (.tail _ (.tail _ (.tail _ (.tail _ (.tail _ (.tail _ (.tail _ (.tail _ (.tail _ (.head _)))))))))))))))))) (fun y754 hy754 => Json.bool_ne_null)
        (fun y754 hy754 => rfl)) ?_
    refine bindOk (Json.opt_mk hn (.tail _ (.tail _ (.tail _ (.tail _ (.tail _ (.tail _ (.tail _ (.tail _ (.tail _ (.tail _ (.tail _ (.tail _ (.tail _ (.tail _ (.tail _ (.tail _ (.tail _ (.tail _ (.head _))))))))))))))))))) (fun y755 hy755 => Pedigree.json_ne_null)
        (fun y755 hy755 => Pedigree.json_rtWith .v1_3 (h.pedigree y755 hy755))) ?_
    refine bindOk (Json.opt_id hn (.tail _ (.tail _ (.tail _ (.tail _ (.tail _ (.tail _ (.tail _ (.tail _ (.tail _ (.tail _ (.tail _ (.tail _ (.tail _ (.tail _ (.tail _ (.tail _ (.tail _ (.tail _ (.tail _ (.head _)))))))))))))))))))) (fun y756 hy756 => Json.ofList_ne_null)
        (fun y756 hy756 => Json.array_id (fun y757 hy757 => ExternalReference.json_rt ((h.externalReferences y756 hy756) y757 hy757)))) ?_
    refine bindOk (Json.opt_id hn (.tail _ (.tail _ (.tail _ (.tail _ (.tail _ (.tail _ (.tail _ (.tail _ (.tail _ (.tail _ (.tail _ (.tail _ (.tail _ (.tail _ (.tail _ (.tail _ (.tail _ (.tail _ (.tail _ (.tail _ (.head _))))))))))))))))))))) (fun y758 hy758 => Json.ofList_ne_null)
        (fun y758 hy758 => Json.array_id (fun y759 hy759 => Property.json_rt))) ?_
    refine bindOk (Json.opt_mk hn (.tail _ (.tail _ (.tail _ (.tail _ (.tail _ (.tail _ (.tail _ (.tail _ (.tail _ (.tail _ (.tail _ (.tail _ (.tail _ (.tail _ (.tail _ (.tail _ (.tail _ (.tail _ (.tail _ (.tail _ (.tail _ (.head _)))))))))))))))))))))) (fun y760 hy760 => Json.ofList_ne_null)
        (fun y760 hy760 => Json.array_ofList (fun y761 hy761 => ((h.components y760 hy760) y761 hy761)))) ?_
    refine bindOk (Json.opt_mk hn (.tail _ (.tail _ (.tail _ (.tail _ (.tail _ (.tail _ (.tail _ (.tail _ (.tail _ (.tail _ (.tail _ (.tail _ (.tail _ (.tail _ (.tail _ (.tail _ (.tail _ (.tail _ (.tail _ (.tail _ (.tail _ (.tail _ (.head _))))))))))))))))))))))) (fun y762 hy762 => ComponentEvidence.json_ne_null)
        (fun y762 hy762 => ComponentEvidence.json_rt .v1_3 (h.evidence y762 hy762))) ?_
    refine bindOk rfl ?_
    refine bindOk rfl ?_
    refine bindOk rfl ?_
    rfl
  | v1_4 =>
    have hn : ["type", "mime-type", "bom-ref", "supplier", "author", "publisher", "group", "name", "version", "description", "scope", "hashes", "licenses", "copyright", "cpe", "purl", "swid", "modified", "pedigree", "externalReferences", "properties", "components", "evidence", "signature"].Nodup := by decide
    refine bindOk (Json.fields_mk _) ?_
    refine bindOk (Json.req_mk hn (.head _) (Json.enum_rt h.componentType)) ?_
    refine bindOk (Json.opt_id hn (.tail _ (.head _)) (fun y763 hy763 => Json.str_ne_null)
        (fun y763 hy763 => rfl)) ?_
    refine bindOk (Json.opt_id hn (.tail _ (.tail _ (.head _))) (fun y764 hy764 => Json.str_ne_null)
        (fun y764 hy764 => rfl)) ?_
    refine bindOk (Json.opt_id hn (.tail _ (.tail _ (.tail _ (.head _)))) (fun y765 hy765 => OrganizationalEntity.json_ne_null)
        (fun y765 hy765 => OrganizationalEntity.json_rt)) ?_
    refine bindOk (Json.opt_id hn (.tail _ (.tail _ (.tail _ (.tail _ (.head _))))) (fun y766 hy766 => Json.str_ne_null)
        (fun y766 hy766 => rfl)) ?_
    refine bindOk (Json.opt_id hn (.tail _ (.tail _ (.tail _ (.tail _ (.tail _ (.head _)))))) (fun y767 hy767 => Json.str_ne_null)
        (fun y767 hy767 => rfl)) ?_
    refine bindOk (Json.opt_id hn (.tail _ (.tail _ (.tail _ (.tail _ (.tail _ (.tail _ (.head _))))))) (fun y768 hy768 => Json.str_ne_null)
        (fun y768 hy768 => rfl)) ?_
    refine bindOk (Json.req_mk hn (.tail _ (.tail _ (.tail _ (.tail _ (.tail _ (.tail _ (.tail _ (.head _)))))))) (rfl)) ?_
    refine bindOk (Json.opt_id hn (.tail _ (.tail _ (.tail _ (.tail _ (.tail _ (.tail _ (.tail _ (.tail _ (.head _))))))))) (fun y769 hy769 => Json.str_ne_null)
        (fun y769 hy769 => rfl)) ?_
    refine bindOk (Json.opt_id hn (.tail _ (.tail _ (.tail _ (.tail _ (.tail _ (.tail _ (.tail _ (.tail _ (.tail _ (.head _)))))))))) (fun y770 hy770 => Json.str_ne_null)
        (fun y770 hy770 => rfl)) ?_
    refine bindOk (Json.opt_id hn (.tail _ (.tail _ (.tail _ (.tail _ (.tail _ (.tail _ (.tail _ (.tail _ (.tail _ (.tail _ (.head _))))))))))) (fun y771 hy771 => Json.str_ne_null)
        (fun y771 hy771 => Json.enum_rt (h.scope y771 hy771))) ?_
    refine bindOk (Json.opt_id hn (.tail _ (.tail _ (.tail _ (.tail _ (.tail _ (.tail _ (.tail _ (.tail _ (.tail _ (.tail _ (.tail _ (.head _)))))))))))) (fun y772 hy772 => Json.ofList_ne_null)
        (fun y772 hy772 => Json.array_id (fun y773 hy773 => Hash.json_rt ((h.hashes y772 hy772) y773 hy773)))) ?_
    refine bindOk (Json.opt_mk hn (.tail _ (.tail _ (.tail _ (.tail _ (.tail _ (.tail _ (.tail _ (.tail _ (.tail _ (.tail _ (.tail _ (.tail _ (.head _))))))))))))) (fun y774 hy774 => Licenses.json_ne_null)
        (fun y774 hy774 => Licenses.json_rt .v1_4 (h.licenses y774 hy774))) ?_
    refine bindOk (Json.opt_id hn (.tail _ (.tail _ (.tail _ (.tail _ (.tail _ (.tail _ (.tail _ (.tail _ (.tail _ (.tail _ (.tail _ (.tail _ (.tail _ (.head _)))))))))))))) (fun y775 hy775 => Json.str_ne_null)
        (fun y775 hy775 => rfl)) ?_
    refine bindOk (Json.opt_id hn (.tail _ (.tail _ (.tail _ (.tail _ (.tail _ (.tail _ (.tail _ (.tail _ (.tail _ (.tail _ (.tail _ (.tail _ (.tail _ (.tail _ (.head _))))))))))))))) (fun y776 hy776 => Json.str_ne_null)
        (fun y776 hy776 => rfl)) ?_
    refine bindOk (Json.opt_id hn (.tail _ (.tail _ (.tail _ (.tail _ (.tail _ (.tail _ (.tail _ (.tail _ (.tail _ (.tail _ (.tail _ (.tail _ (.tail _ (.tail _ (.tail _ (.head _)))))))))))))))) (fun y777 hy777 => Json.str_ne_null)
        (fun y777 hy777 => rfl)) ?_
    refine bindOk (Json.opt_id hn (.tail _ (.tail _ (.tail _ (.tail _ (.tail _ (.tail _ (.tail _ (.tail _ (.tail _ (.tail _ (.tail _ (.tail _ (.tail _ (.tail _ (.tail _ (.tail _ (.head _))))))))))))))))) (fun y778 hy778 => Swid.json_ne_null)
        (fun y778 hy778 => Swid.json_rt (h.swid y778 hy778))) ?_
    refine bindOk (Json.opt_id hn (.tail _ (.tail _ (.tail _ (.tail _ (.tail _ (.tail _ (.tail _ (.tail _ (.tail _ (.tail _ (.tail _ (.tail _ (.tail _ (.tail _ (.tail _ (.tail _ (.tail _ (.head _)))))))))))))))))) (fun y779 hy779 => Json.bool_ne_null)
        (fun y779 hy779 => rfl)) ?_
    refine bindOk (Json.opt_mk hn (.tail _ (.tail _ (.tail _ (.tail _ (.tail _ (.tail _ (.tail _ (.tail _ (.tail _ (.tail _ (.tail _ (.tail _ (.tail _ (.tail _ (.tail _ (.tail _ (.tail _ (.tail _ (.head _))))))))))))))))))) (fun y780 hy780 => Pedigree.json_ne_null)
        (fun y780 hy780 => Pedigree.json_rtWith .v1_4 (h.pedigree y780 hy780))) ?_
    refine bindOk (Json.opt_id hn (.tail _ (.tail _ (.tail _ (.tail _ (.tail _ (.tail _ (.tail _ (.tail _ (.tail _ (.tail _ (.tail _ (.tail _ (.tail _ (.tail _ (.tail _ (.tail _ (.tail _ (.tail _ (.tail _ (.head _)))))))))))))))))))) (fun y781 hy781 => Json.ofList_ne_null)
        (fun y781 hy781 => Json.array_id (fun y782 hy782 => ExternalReference.json_rt ((h.externalReferences y781 hy781) y782 hy782)))) ?_
    refine bindOk (Json.opt_id hn (.tail _ (.tail _ (.tail _ (.tail _ (.tail _ (.tail _ (.tail _ (.tail _ (.tail _ (.tail _ (.tail _ (.tail _ (.tail _ (.tail _ (.tail _ (.tail _ (.tail _ (.tail _ (.tail _ (.tail _ (.head _))))))))))))))))))))) (fun y783 hy783 => Json.ofList_ne_null)
        (fun y783 hy783 => Json.array_id (fun y784 hy784 => Property.json_rt))) ?_
    refine bindOk (Json.opt_mk hn (.tail _ (.tail _ (.tail _ (.tail _ (.tail _ (.tail _ (.tail _ (.tail _ (.tail _ (.tail _ (.tail _ (.tail _ (.tail _ (.tail _ (.tail _ (.tail _ (.tail _ (.tail _ (.tail _ (.tail _ (.tail _ (.head _)))))))))))))))))))))) (fun y785 hy785 => Json.ofList_ne_null)
        (fun y785 hy785 => Json.array_ofList (fun y786 hy786 => ((h.components y785 hy785) y786 hy786)))) ?_
    refine bindOk (Json.opt_mk hn (.tail _ (.tail _ (.tail _ (.tail _ (.tail _ (.tail _ (.tail _ (.tail _ (.tail _ (.tail _ (.tail _ (.tail _ (.tail _ (.tail _ (.tail _ (.tail _ (.tail _ (.tail _ (.tail _ (.tail _ (.tail _ (.tail _ (.head _))))))))))))))))))))))) (fun y787 hy787 => ComponentEvidence.json_ne_null)
        (fun y787 hy787 => ComponentEvidence.json_rt .v1_4 (h.evidence y787 hy787))) ?_
    refine bindOk (Json.opt_id hn (.tail _ (.tail _ (.tail _ (.tail _ (.tail _ (.tail _ (.tail _ (.tail _ (.tail _ (.tail _ (.tail _ (.tail _ (.tail _ (.tail _ (.tail _ (.tail _ (.tail _ (.tail _ (.tail _ (.tail _ (.tail _ (.tail _ (.tail _ (.head _)))))))))))))))))))))))) (fun y788 hy788 => Signature.json_ne_null)
        (fun y788 hy788 => Signature.json_rt ((h.signature nofun) y788 hy788))) ?_
    refine bindOk rfl ?_
    refine bindOk rfl ?_
    rfl
  | v1_5 =>
    have hn : ["type", "mime-type", "bom-ref", "supplier", "author", "publisher", "group", "name", "version", "description", "scope", "hashes", "licenses", "copyright", "cpe", "purl", "swid", "modified", "pedigree", "externalReferences", "properties", "components", "evidence", "signature", "modelCard", "data"].Nodup := by decide
    refine bindOk (Json.fields_mk _) ?_
    refine bindOk (Json.req_mk hn (.head _) (Json.enum_rt h.componentType)) ?_
    refine bindOk (Json.opt_id hn (.tail _ (.head _)) (fun y789 hy789 => Json.str_ne_null)
        (fun y789 hy789 => rfl)) ?_
    refine bindOk (Json.opt_id hn (.tail _ (.tail _ (.head _))) (fun y790 hy790 => Json.str_ne_null)
        (fun y790 hy790 => rfl)) ?_
    refine bindOk (Json.opt_id hn (.tail _ (.tail _ (.tail _ (.head _)))) (fun y791 hy791 => OrganizationalEntity.json_ne_null)
        (fun y791 hy791 => OrganizationalEntity.json_rt)) ?_
    refine bindOk (Json.opt_id hn (.tail _ (.tail _ (.tail _ (.tail _ (.head _))))) (fun y792 hy792 => Json.str_ne_null)
        (fun y792 hy792 => rfl)) ?_
    refine bindOk (Json.opt_id hn (.tail _ (.tail _ (.tail _ (.tail _ (.tail _ (.head _)))))) (fun y793 hy793 => Json.str_ne_null)
        (fun y793 hy793 => rfl)) ?_
    refine bindOk (Json.opt_id hn (.tail _ (.tail _ (.tail _ (.tail _ (.tail _ (.tail _ (.head _))))))) (fun y794 hy794 => Json.str_ne_null)
        (fun y794 hy794 => rfl)) ?_
    refine bindOk (Json.req_mk hn (.tail _ (.tail _ (.tail _ (.tail _ (.tail _ (.tail _ (.tail _ (.head _)))))))) (rfl)) ?_
    refine bindOk (Json.opt_id hn (.tail _ (.tail _ (.tail _ (.tail _ (.tail _ (.tail _ (.tail _ (.tail _ (.head _))))))))) (fun y795 hy795 => Json.str_ne_null)
        (fun y795 hy795 => rfl)) ?_
    refine bindOk (Json.opt_id hn (.tail _ (.tail _ (.tail _ (.tail _ (.tail _ (.tail _ (.tail _ (.tail _ (.tail _ (.head _)))))))))) (fun y796 hy796 => Json.str_ne_null)
        (fun y796 hy796 => rfl)) ?_
    refine bindOk (Json.opt_id hn (.tail _ (.tail _ (.tail _ (.tail _ (.tail _ (.tail _ (.tail _ (.tail _ (.tail _ (.tail _ (.head _))))))))))) (fun y797 hy797 => Json.str_ne_null)
        (fun y797 hy797 => Json.enum_rt (h.scope y797 hy797))) ?_
    refine bindOk (Json.opt_id hn (.tail _ (.tail _ (.tail _ (.tail _ (.tail _ (.tail _ (.tail _ (.tail _ (.tail _ (.tail _ (.tail _ (.head _)))))))))))) (fun y798 hy798 => Json.ofList_ne_null)
        (fun y798 hy798 => Json.array_id (fun y799 hy799 => Hash.json_rt ((h.hashes y798 hy798) y799 hy799)))) ?_
    refine bindOk (Json.opt_mk hn (.tail _ (.tail _ (.tail _ (.tail _ (.tail _ (.tail _ (.tail _ (.tail _ (.tail _ (.tail _ (.tail _ (.tail _ (.head _))))))))))))) (fun y800 hy800 => Licenses.json_ne_null)
        (fun y800 hy800 => Licenses.json_rt .v1_5 (h.licenses y800 hy800))) ?_
    refine bindOk (Json.opt_id hn (.tail _ (.tail _ (.tail _ (.tail _ (.tail _ (.tail _ (.tail _ (.tail _ (.tail _ (.tail _ (.tail _ (.tail _ (.tail _ (.head _)))))))))))))) (fun y801 hy801 => Json.str_ne_null)
        (fun y801 hy801 => rfl)) ?_
    refine bindOk (Json.opt_id hn (.tail _ (.tail _ (.tail _ (.tail _ (.tail _ (.tail _ (.tail _ (.tail _ (.tail _ (.tail _ (.tail _ (.tail _ (.tail _ (.tail _ (.head _))))))))))))))) (fun y802 hy802 => Json.str_ne_null)
        (fun y802 hy802 => rfl)) ?_
    refine bindOk (Json.opt_id hn (.tail _ (.tail _ (.tail _ (.tail _ (.tail _ (.tail _ (.tail _ (.tail _ (.tail _ (.tail _ (.tail _ (.tail _ (.tail _ (.tail _ (.tail _ (.head _)))))))))))))))) (fun y803 hy803 => Json.str_ne_null)
        (fun y803 hy803 => rfl)) ?_
    refine bindOk (Json.opt_id hn (.tail _ (.tail _ (.tail _ (.tail _ (.tail _ (.tail _ (.tail _ (.tail _ (.tail _ (.tail _ (.tail _ (.tail _ (.tail _ (.tail _ (.tail _ (.tail _ (.head _))))))))))))))))) (fun y804 hy804 => Swid.json_ne_null)
        (fun y804 hy804 => Swid.json_rt (h.swid y804 hy804))) ?_
    refine bindOk (Json.opt_id hn (.tail _ (.tail _ (.tail _ (.tail _ (.tail _ (.tail _ (.tail _ (.tail _ (.tail _ (.tail _ (.tail _ (.tail _ (.tail _ (.tail _ (.tail _ (.tail _ (.tail _ (.head _)))))))))))))))))) (fun y805 hy805 => Json.bool_ne_null)
        (fun y805 hy805 => rfl)) ?_
    refine bindOk (Json.opt_mk hn (.tail _ (.tail _ (.tail _ (.tail _ (.tail _ (.tail _ (.tail _ (.tail _ (.tail _ (.tail _ (.tail _ (.tail _ (.tail _ (.tail _ (.tail _ (.tail _ (.tail _ (.tail _ (.head _))))))))))))))))))) (fun y806 hy806 => Pedigree.json_ne_null)
        (fun y806 hy806 => Pedigree.json_rtWith .v1_5 (h.pedigree y806 hy806))) ?_
    refine bindOk (Json.opt_id hn (.tail _ (.tail _ (.tail _ (.tail _ (.tail _ (.tail _ (.tail _ (.tail _ (.tail _ (.tail _ (.tail _ (.tail _ (.tail _ (.tail _ (.tail _ (.tail _ (.tail _ (.tail _ (.tail _ (.head _)))))))))))))))))))) (fun y807 hy807 => Json.ofList_ne_null)
        (fun y807 hy807 => Json.array_id (fun y808 hy808 => ExternalReference.json_rt ((h.externalReferences y807 hy807) y808 hy808)))) ?_
    refine bindOk (Json.opt_id hn (.tail _ (.tail _ (.tail _ (.tail _ (.tail _ (.tail _ (.tail _ (.tail _ (.tail _ (.tail _ (.tail _ (.tail _ (.tail _ (.tail _ (.tail _ (.tail _ (.tail _ (.tail _ (.tail _ (.tail _ (.head _))))))))))))))))))))) (fun y809 hy809 => Json.ofList_ne_null)
        (fun y809 hy809 => Json.array_id (fun y810 hy810 => Property.json_rt))) ?_
    refine bindOk (Json.opt_mk hn (.tail _ (.tail _ (.tail _ (.tail _ (.tail _ (.tail _ (.tail _ (.tail _ (.tail _ (.tail _ (.tail _ (.tail _ (.tail _ (.tail _ (.tail _ (.tail _ (.tail _ (.tail _ (.tail _ (.tail _ (.tail _ (.head _)))))))))))))))))))))) (fun y811 hy811 => Json.ofList_ne_null)
        (fun y811 hy811 => Json.array_ofList (fun y812 hy812 => ((h.components y811 hy811) y812 hy812)))) ?_
    refine bindOk (Json.opt_mk hn (.tail _ (.tail _ (.tail _ (.tail _ (.tail _ (.tail _ (.tail _ (.tail _ (.tail _ (.tail _ (.tail _ (.tail _ (.tail _ (.tail _ (.tail _ (.tail _ (.tail _ (.tail _ (.tail _ (.tail _ (.tail _ (.tail _ (.head _))))))))))))))))))))))) (fun y813 hy813 => ComponentEvidence.json_ne_null)
        (fun y813 hy813 => ComponentEvidence.json_rt .v1_5 (h.evidence y813 hy813))) ?_
    refine bindOk (Json.opt_id hn (.tail _ (.tail _ (.tail _ (.tail _ (.tail _ (.tail _ (.tail _ (.tail _ (.tail _ (.tail _ (.tail _ (.tail _ (.tail _ (.tail _ (.tail _ (.tail _ (.tail _ (.tail _ (.tail _ (.tail _ (.tail _ (.tail _ (.tail _ (.head _)))))))))))))))))))))))) (fun y814 hy814 => Signature.json_ne_null)
        (fun y814 hy814 => Signature.json_rt ((h.signature nofun) y814 hy814))) ?_
    refine bindOk (Json.opt_id hn (.tail _ (.tail _ (.tail _ (.tail _ (.tail _ (.tail _ (.tail _ (.tail _ (.tail _ (.tail _ (.tail _ (.tail _ (.tail _ (.tail _ (.tail _ (.tail _ (.tail _ (.tail _ (.tail _ (.tail _ (.tail _ (.tail _ (.tail _ (.tail _ (.head _))))))))))))))))))))))))) (fun y815 hy815 => ModelCard.json_ne_null)
        (fun y815 hy815 => ModelCard.json_rt ((h.modelCard rfl) y815 hy815))) ?_
    refine bindOk (Json.opt_id hn (.tail _ (.tail _ (.tail _ (.tail _ (.tail _ (.tail _ (.tail _ (.tail _ (.tail _ (.tail _ (.tail _ (.tail _ (.tail _ (.tail _ (.tail _ (.tail _ (.tail _ (.tail _ (.tail _ (.tail _ (.tail _ (.tail _ (.tail _ (.tail _ (.tail _ (.head _)))))))))))))))))))))))))) (fun y816 hy816 => ComponentData.json_ne_null)
        (fun y816 hy816 => ComponentData.json_rt ((h.data rfl) y816 hy816))) ?_
    rfl

theorem Component.writeXml_eq (v : SpecVersion) (x : Component) : Component.writeXml v x =
  writeElem "component" (mkAttrs [("type", some (Classification.display x.componentType)), ("mime-type", x.mimeType), ("bom-ref", x.bomRef)]) (
    (writeOpt (fun c => if OrganizationalEntity.willWrite c then OrganizationalEntity.writeXml "supplier" c else []) x.supplier) ++
    ((writeOpt (writeSimple "author") x.author) ++
    ((writeOpt (writeSimple "publisher") x.publisher) ++
    ((writeOpt (writeSimple "group") x.group) ++
    (((writeSimple "name") x.name) ++
    ((writeOpt (writeSimple "version") x.version) ++
    ((writeOpt (writeSimple "description") x.description) ++
    ((writeOpt (fun e => writeSimple "scope" (Scope.display e)) x.scope) ++
    ((writeOpt (writeList "hashes" Hash.writeXml) x.hashes) ++
    ((writeOpt (Licenses.writeXml v) x.licenses) ++
    ((writeOpt (writeSimple "copyright") x.copyright) ++
    ((writeOpt (writeSimple "cpe") x.cpe) ++
    ((writeOpt (writeSimple "purl") x.purl) ++
    ((writeOpt Swid.writeXml x.swid) ++
    ((writeOpt (fun b => writeSimple "modified" (boolStr b)) x.modified) ++
    ((writeOpt (Pedigree.writeXml v) x.pedigree) ++
    ((writeOpt (writeList "externalReferences" ExternalReference.writeXml) x.externalReferences) ++
    ((writeOpt (writeList "properties" Property.writeXml) x.properties) ++
    ((writeOpt (writeList "components" (Component.writeXml v)) x.components) ++
    ((writeOpt (fun c => if ComponentEvidence.willWrite c then ComponentEvidence.writeXml v c else []) x.evidence) ++
    ((since14 v (writeOpt Signature.writeXml x.signature) []) ++
    ((since15 v (writeOpt ModelCard.writeXml x.modelCard) []) ++
    ((since15 v (writeOpt (ComponentData.writeXml "data") x.data) [])))))))))))))))))))))))) := by
  cases x
  rw [Component.writeXml]
  simp only [Component.writeXmlOpt_eq, Pedigree.writeXmlOpt_eq]

theorem Component.xml_body_wfWith {loose : Bool} {v : SpecVersion} (hl : v = .v1_5 → loose = true) {x : Component}
    (hs : ∀ y ∈ x.children, WellFormed loose (Component.writeXml v y)) : WellFormed loose (
    (writeOpt (fun c => if OrganizationalEntity.willWrite c then OrganizationalEntity.writeXml "supplier" c else []) x.supplier) ++
    ((writeOpt (writeSimple "author") x.author) ++
    ((writeOpt (writeSimple "publisher") x.publisher) ++
    ((writeOpt (writeSimple "group") x.group) ++
    (((writeSimple "name") x.name) ++
    ((writeOpt (writeSimple "version") x.version) ++
    ((writeOpt (writeSimple "description") x.description) ++
    ((writeOpt (fun e => writeSimple "scope" (Scope.display e)) x.scope) ++
    ((writeOpt (writeList "hashes" Hash.writeXml) x.hashes) ++
    ((writeOpt (Licenses.writeXml v) x.licenses) ++
    ((writeOpt (writeSimple "copyright") x.copyright) ++
    ((writeOpt (writeSimple "cpe") x.cpe) ++
    ((writeOpt (writeSimple "purl") x.purl) ++
    ((writeOpt Swid.writeXml x.swid) ++
    ((writeOpt (fun b => writeSimple "modified" (boolStr b)) x.modified) ++
    ((writeOpt (Pedigree.writeXml v) x.pedigree) ++
    ((writeOpt (writeList "externalReferences" ExternalReference.writeXml) x.externalReferences) ++
    ((writeOpt (writeList "properties" Property.writeXml) x.properties) ++
    ((writeOpt (writeList "components" (Component.writeXml v)) x.components) ++
    ((writeOpt (fun c => if ComponentEvidence.willWrite c then ComponentEvidence.writeXml v c else []) x.evidence) ++
    ((since14 v (writeOpt Signature.writeXml x.signature) []) ++
    ((since15 v (writeOpt ModelCard.writeXml x.modelCard) []) ++
    ((since15 v (writeOpt (ComponentData.writeXml "data") x.data) [])))))))))))))))))))))))) :=
  (.append (writeOpt_wf fun _ _ => (if_wf OrganizationalEntity.xml_wf))
    (.append (writeOpt_wf fun _ _ => writeSimple_wf)
    (.append (writeOpt_wf fun _ _ => writeSimple_wf)
    (.append (writeOpt_wf fun _ _ => writeSimple_wf)
    (.append (writeSimple_wf)
    (.append (writeOpt_wf fun _ _ => writeSimple_wf)
    (.append (writeOpt_wf fun _ _ => writeSimple_wf)
    (.append (writeOpt_wf fun _ _ => writeSimple_wf)
    (.append (writeOpt_wf fun _ _ => (writeList_wf fun _ _ => Hash.xml_wf))
    (.append (writeOpt_wf fun _ _ => Licenses.xml_wf)
    (.append (writeOpt_wf fun _ _ => writeSimple_wf)
    (.append (writeOpt_wf fun _ _ => writeSimple_wf)
    (.append (writeOpt_wf fun _ _ => writeSimple_wf)
    (.append (writeOpt_wf fun _ _ => Swid.xml_wf)
    (.append (writeOpt_wf fun _ _ => writeSimple_wf)
    (.append (writeOpt_wf fun _ q => Pedigree.xml_wfWith hl fun y hy => hs y (Component.mem_pedigree q hy))
    (.append (writeOpt_wf fun _ _ => (writeList_wf fun _ _ => ExternalReference.xml_wf))
    (.append (writeOpt_wf fun _ _ => (writeList_wf fun _ _ => Property.xml_wf))
    (.append (writeOpt_wf fun _ q => writeList_wf fun y hy => hs y (Component.mem_components q hy))
    (.append (writeOpt_wf fun _ _ => (if_wf ComponentEvidence.xml_wf))
    (.append (since14_wf (writeOpt_wf fun _ _ => Signature.xml_wf))
    (.append (since15_wf fun e => WellFormed.loosen (writeOpt_wf fun _ _ => ModelCard.xml_wf) (hl e))
    (since15_wf fun e => WellFormed.loosen (writeOpt_wf fun _ _ => ComponentData.xml_wf) (hl e))))))))))))))))))))))))

theorem Component.xml_oneWith {loose : Bool} {v : SpecVersion} (hl : v = .v1_5 → loose = true) {x : Component}
    (hs : ∀ y ∈ x.children, WellFormed loose (Component.writeXml v y)) :
    OneElement loose "component" (Component.writeXml v x) :=
  Component.writeXml_eq v x ▸ writeElem_one (goodAttrs (by decide : ["type", "mime-type", "bom-ref"].Nodup)) (Component.xml_body_wfWith hl hs)

theorem Component.xml_wfWith {loose : Bool} {v : SpecVersion} (hl : v = .v1_5 → loose = true) {x : Component}
    (hs : ∀ y ∈ x.children, WellFormed loose (Component.writeXml v y)) :
    WellFormed loose (Component.writeXml v x) :=
  (Component.xml_oneWith hl hs).wf

theorem Component.arms_localWith (v : SpecVersion) {sub : XElem Component}
    (hs : ∀ {t}, LocalAt t sub) :
    ∀ p ∈ Component.armsWith sub v, LocalArm p.1 p.2 :=
  (armsAppend (armsAppend (armsCons (arm_local OrganizationalEntity.xml_local _)
    (armsCons (arm_local readSimple_local _)
    (armsCons (arm_local readSimple_local _)
    (armsCons (arm_local readSimple_local _)
    (armsCons (arm_local readSimple_local _)
    (armsCons (arm_local readSimple_local _)
    (armsCons (arm_local readSimple_local _)
    (armsCons (arm_local (map_local readSimple_local Scope.new) _)
    (armsCons (arm_local (readList_local Hash.xml_local) _)
    (armsCons (arm_local (Licenses.xml_local v) _)
    (armsCons (arm_local readSimple_local _)
    (armsCons (arm_local readSimple_local _)
    (armsCons (arm_local readSimple_local _)
    (armsCons (arm_local Swid.xml_local _)
    (armsCons (arm_local readBool_local _)
    (armsCons (arm_local (Pedigree.xml_localWith v hs) _)
    (armsCons (arm_local (readList_local ExternalReference.xml_local) _)
    (armsCons (arm_local (readListLax_local Property.xml_local) _)
    (armsCons (arm_local (readListLax_local hs) _)
    (armsCons (arm_local (ComponentEvidence.xml_local v (tag := "evidence") (by decide)) _)
    armsNil))))))))))))))))))))
    (armsSince14 (armsCons (arm_local Signature.xml_local _)
    armsNil)))
    (armsSince15 (armsCons (arm_local (ModelCard.xml_local (tag := "modelCard") (by decide)) _)
    (armsCons (arm_local (ComponentData.xml_local (tag := "data") (by decide)) _)
    armsNil))))

theorem Component.xml_localWith (v : SpecVersion) {sub : XElem Component}
    (hs : ∀ {t}, LocalAt t sub) {tag : String} :
    LocalAt tag (Component.readXmlWith sub v) :=
  readStruct_local (by simp) (Component.arms_localWith v hs)

theorem Pedigree.JsonOkWith.imp {p q : Component → Prop} {v : SpecVersion} {x : Pedigree}
    (h : Pedigree.JsonOkWith p v x) (hi : ∀ y, p y → q y) : Pedigree.JsonOkWith q v x :=
  { h with
    ancestors := fun l q y hy => hi y (h.ancestors l q y hy),
    descendants := fun l q y hy => hi y (h.descendants l q y hy),
    variants := fun l q y hy => hi y (h.variants l q y hy) }

theorem Pedigree.XmlOkWith.imp {p q : Component → Prop} {v : SpecVersion} {x : Pedigree}
    (h : Pedigree.XmlOkWith p v x) (hi : ∀ y, p y → q y) : Pedigree.XmlOkWith q v x :=
  { h with
    ancestors := fun l q y hy => hi y (h.ancestors l q y hy),
    descendants := fun l q y hy => hi y (h.descendants l q y hy),
    variants := fun l q y hy => hi y (h.variants l q y hy) }

theorem Component.JsonOkWith.imp {p q : Component → Prop} {v : SpecVersion} {x : Component}
    (h : Component.JsonOkWith p v x) (hi : ∀ y, p y → q y) : Component.JsonOkWith q v x :=
  { h with
    components := fun l q y hy => hi y (h.components l q y hy),
    pedigree := fun p q => Pedigree.JsonOkWith.imp (h.pedigree p q) hi }

theorem Component.XmlOkWith.imp {p q : Component → Prop} {v : SpecVersion} {x : Component}
    (h : Component.XmlOkWith p v x) (hi : ∀ y, p y → q y) : Component.XmlOkWith q v x :=
  { h with
    components := fun l q y hy => hi y (h.components l q y hy),
    pedigree := fun p q => Pedigree.XmlOkWith.imp (h.pedigree p q) hi }

theorem Component.xml_wf {loose : Bool} {v : SpecVersion} (hl : v = .v1_5 → loose = true)
    {x : Component} : WellFormed loose (Component.writeXml v x) := by
  induction x using Component.ind with
  | h x ih => exact Component.xml_wfWith hl ih

theorem Pedigree.xml_wf {loose : Bool} {v : SpecVersion} (hl : v = .v1_5 → loose = true)
    {x : Pedigree} : WellFormed loose (Pedigree.writeXml v x) :=
  Pedigree.xml_wfWith hl fun _ _ => Component.xml_wf hl

theorem Component.xml_one {loose : Bool} {v : SpecVersion} (hl : v = .v1_5 → loose = true)
    {x : Component} : OneElement loose "component" (Component.writeXml v x) :=
  Component.xml_oneWith hl fun _ _ => Component.xml_wf hl

theorem Pedigree.xml_readsWith (v : SpecVersion) {ns : Option String} {x : Pedigree}
    {sub : XElem Component} (h : Pedigree.XmlOkWith (fun y => Reads ns (Component.writeXml v y) "component" sub (Component.at v y)) v x) :
    Reads ns (Pedigree.writeXml v x) "pedigree" (Pedigree.readXmlWith sub v) (x.at v) := by
  rw [Pedigree.writeXml_eq, Pedigree.at_eq]
  have hn : ["ancestors", "descendants", "variants", "commits", "patches", "notes"].Nodup := by decide
  refine reads_struct (Pedigree.xml_body_wfWith (fun _ => rfl) (fun _ _ => Component.xml_wf fun _ => rfl)) rfl
      (Goes.append (Goes.opt_at (fun o s => { s with ancestors := o }) (.head _) hn (fun _ => rfl) rfl
          (fun y714 hy714 => reads_listLax_at (fun y715 hy715 => ((h.ancestors y714 hy714) y715 hy715)) (fun _ _ => (Component.xml_wf fun _ => rfl))))
        (Goes.append (Goes.opt_at (fun o s => { s with descendants := o }) (.tail _ (.head _)) hn (fun _ => rfl) rfl
          (fun y716 hy716 => reads_listLax_at (fun y717 hy717 => ((h.descendants y716 hy716) y717 hy717)) (fun _ _ => (Component.xml_wf fun _ => rfl))))
        (Goes.append (Goes.opt_at (fun o s => { s with variants := o }) (.tail _ (.tail _ (.head _))) hn (fun _ => rfl) rfl
          (fun y718 hy718 => reads_listLax_at (fun y719 hy719 => ((h.variants y718 hy718) y719 hy719)) (fun _ _ => (Component.xml_wf fun _ => rfl))))
        (Goes.append (Goes.opt (fun o s => { s with commits := o }) (.tail _ (.tail _ (.tail _ (.head _)))) hn (fun _ => rfl) rfl
          (fun y720 hy720 => reads_listLax (fun y721 hy721 => Commit.xml_reads ((h.commits y720 hy720) y721 hy721)) (fun _ _ => Commit.xml_wf)))
        (Goes.append (Goes.opt (fun o s => { s with patches := o }) (.tail _ (.tail _ (.tail _ (.tail _ (.head _))))) hn (fun _ => rfl) rfl
          (fun y722 hy722 => reads_listLax (fun y723 hy723 => Patch.xml_reads ((h.patches y722 hy722) y723 hy723)) (fun _ _ => Patch.xml_wf)))
        (Goes.opt (fun o s => { s with notes := o }) (.tail _ (.tail _ (.tail _ (.tail _ (.tail _ (.head _)))))) hn (fun _ => rfl) rfl
          (fun y724 hy724 => reads_simple (h.notes y724 hy724)))
        (writeOpt_wf fun _ _ => (writeList_wf fun _ _ => Patch.xml_wf)))
        (writeOpt_wf fun _ _ => (writeList_wf fun _ _ => Commit.xml_wf)))
        (writeOpt_wf fun _ _ => (writeList_wf fun _ _ => (Component.xml_wf fun _ => rfl))))
        (writeOpt_wf fun _ _ => (writeList_wf fun _ _ => (Component.xml_wf fun _ => rfl))))
        (writeOpt_wf fun _ _ => (writeList_wf fun _ _ => (Component.xml_wf fun _ => rfl)))) ?_
  rfl

theorem Component.xml_readsWith (v : SpecVersion) {ns : Option String} {x : Component}
    {sub : XElem Component} (h : Component.XmlOkWith (fun y => Reads ns (Component.writeXml v y) "component" sub (Component.at v y)) v x) :
    Reads ns (Component.writeXml v x) "component" (Component.readXmlWith sub v) (x.at v) := by
  rw [Component.writeXml_eq, Component.at_eq]
  cases v with
  | v1_3 =>
    have hn : ["supplier", "author", "publisher", "group", "name", "version", "description", "scope", "hashes", "licenses", "copyright", "cpe", "purl", "swid", "modified", "pedigree", "externalReferences", "properties", "components", "evidence"].Nodup := by decide
    have ha : ["type", "mime-type", "bom-ref"].Nodup := by decide
    refine reads_struct (p := (Classification.display x.componentType, x.mimeType, x.bomRef)) (Component.xml_body_wfWith (fun _ => rfl) (fun _ _ => Component.xml_wf fun _ => rfl)) ?_
        (Goes.append (s2 := ({ supplier := x.supplier } : Component.Vars)) (Goes.to (Goes.opt (fun o s => { s with supplier := o }) (.head _) hn (fun _ => rfl) rfl
            (fun y842 hy842 => reads_if (h.supplier y842 hy842).2 (OrganizationalEntity.xml_reads (h.supplier y842 hy842).1))) rfl)
          (Goes.append (s2 := ({ supplier := x.supplier, author := x.author } : Component.Vars)) (Goes.to (Goes.opt (fun o s => { s with author := o }) (.tail _ (.head _)) hn (fun _ => rfl) rfl
            (fun y843 hy843 => reads_simple (h.author y843 hy843))) rfl)
          (Goes.append (s2 := ({ supplier := x.supplier, author := x.author, publisher := x.publisher } : Component.Vars)) (Goes.to (Goes.opt (fun o s => { s with publisher := o }) (.tail _ (.tail _ (.head _))) hn (fun _ => rfl) rfl
            (fun y844 hy844 => reads_simple (h.publisher y844 hy844))) rfl)
          (Goes.append (s2 := ({ supplier := x.supplier, author := x.author, publisher := x.publisher, group := x.group } : Component.Vars)) (Goes.to (Goes.opt (fun o s => { s with group := o }) (.tail _ (.tail _ (.tail _ (.head _)))) hn (fun _ => rfl) rfl
            (fun y845 hy845 => reads_simple (h.group y845 hy845))) rfl)
          (Goes.append (s2 := ({ supplier := x.supplier, author := x.author, publisher := x.publisher, group := x.group, name := some x.name } : Component.Vars)) (Goes.to (Goes.one (reads_simple h.name) (.tail _ (.tail _ (.tail _ (.tail _ (.head _))))) hn) rfl)
          (Goes.append (s2 := ({ supplier := x.supplier, author := x.author, publisher := x.publisher, group := x.group, name := some x.name, version := x.version } : Component.Vars)) (Goes.to (Goes.opt (fun o s => { s with version := o }) (.tail _ (.tail _ (.tail _ (.tail _ (.tail _ (.head _)))))) hn (fun _ => rfl) rfl
            (fun y846 hy846 => reads_simple (h.version y846 hy846))) rfl)
          (Goes.append (s2 := ({ supplier := x.supplier, author := x.author, publisher := x.publisher, group := x.group, name := some x.name, version := x.version, description := x.description } : Component.Vars)) (Goes.to (Goes.opt (fun o s => { s with description := o }) (.tail _ (.tail _ (.tail _ (.tail _ (.tail _ (.tail _ (.head _))))))) hn (fun _ => rfl) rfl
            (fun y847 hy847 => reads_simple (h.description y847 hy847))) rfl)
          (Goes.append (s2 := ({ supplier := x.supplier, author := x.author, publisher := x.publisher, group := x.group, name := some x.name, version := x.version, description := x.description, scope := x.scope } : Component.Vars)) (Goes.to (Goes.opt (fun o s => { s with scope := o }) (.tail _ (.tail _ (.tail _ (.tail _ (.tail _ (.tail _ (.tail _ (.head _)))))))) hn (fun _ => rfl) rfl
            (fun y848 hy848 => reads_enum (h.scope y848 hy848))) rfl)
          (Goes.append (s2 := ({ supplier := x.supplier, author := x.author, publisher := x.publisher, group := x.group, name := some x.name, version := x.version, description := x.description, scope := x.scope, hashes := x.hashes } : Component.Vars)) (Goes.to (Goes.opt (fun o s => { s with hashes := o }) (.tail _ (.tail _ (.tail _ (.tail _ (.tail _ (.tail _ (.tail _ (.tail _ (.head _))))))))) hn (fun _ => rfl) rfl
            (fun y849 hy849 => reads_list (fun y850 hy850 => Hash.xml_reads ((h.hashes y849 hy849) y850 hy850)) (fun _ _ => Hash.xml_wf))) rfl)
          (Goes.append (s2 := ({ supplier := x.supplier, author := x.author, publisher := x.publisher, group := x.group, name := some x.name, version := x.version, description := x.description, scope := x.scope, hashes := x.hashes, licenses := x.licenses.map (Licenses.at .v1_3) } : Component.Vars)) (Goes.to (Goes.opt_at (fun o s => { s with licenses := o }) (.tail _ (.tail _ (.tail _ (.tail _ (.tail _ (.tail _ (.tail _ (.tail _ (.tail _ (.head _)))))))))) hn (fun _ => rfl) rfl
            (fun y851 hy851 => Licenses.xml_reads .v1_3 (h.licenses y851 hy851))) rfl)
          (Goes.append (s2 := ({ supplier := x.supplier, author := x.author, publisher := x.publisher, group := x.group, name := some x.name, version := x.version, description := x.description, scope := x.scope, hashes := x.hashes, licenses := x.licenses.map (Licenses.at .v1_3), copyright := x.copyright } : Component.Vars)) (Goes.to (Goes.opt (fun o s => { s with copyright := o }) (.tail _ (.tail _ (.tail _ (.tail _ (.tail _ (.tail _ (.tail _ (.tail _ (.tail _ (.tail _ (.head _))))))))))) hn (fun _ => rfl) rfl
            (fun y852 hy852 => reads_simple (h.copyright y852 hy852))) rfl)
          (Goes.append (s2 := ({ supplier := x.supplier, author := x.author, publisher := x.publisher, group := x.group, name := some x.name, version := x.version, description := x.description, scope := x.scope, hashes := x.hashes, licenses := x.licenses.map (Licenses.at .v1_3), copyright := x.copyright, cpe := x.cpe } : Component.Vars)) (Goes.to (Goes.opt (fun o s => { s with cpe := o }) (.tail _ (.tail _ (.tail _ (.tail _ (.tail _ (.tail _ (.tail _ (.tail _ (.tail _ (.tail _ (.tail _ (.head _)))))))))))) hn (fun _ => rfl) rfl
            (fun y853 hy853 => reads_simple (h.cpe y853 hy853))) rfl)
          (Goes.append (s2 := ({ supplier := x.supplier, author := x.author, publisher := x.publisher, group := x.group, name := some x.name, version := x.version, description := x.description, scope := x.scope, hashes := x.hashes, licenses := x.licenses.map (Licenses.at .v1_3), copyright := x.copyright, cpe := x.cpe, purl := x.purl } : Component.Vars)) (Goes.to (Goes.opt (fun o s => { s with purl := o }) (.tail _ (.tail _ (.tail _ (.tail _ (.tail _ (.tail _ (.tail _ (.tail _ (.tail _ (.tail _ (.tail _ (.tail _ (.head _))))))))))))) hn (fun _ => rfl) rfl
            (fun y854 hy854 => reads_simple (h.purl y854 hy854))) rfl)
          (Goes.append (s2 := ({ supplier := x.supplier, author := x.author, publisher := x.publisher, group := x.group, name := some x.name, version := x.version, description := x.description, scope := x.scope, hashes := x.hashes, licenses := x.licenses.map (Licenses.at .v1_3), copyright := x.copyright, cpe := x.cpe, purl := x.purl, swid := x.swid } : Component.Vars)) (Goes.to (Goes.opt (fun o s => { s with swid := o }) (.tail _ (.tail _ (.tail _ (.tail _ (.tail _ (.tail _ (.tail _ (.tail _ (.tail _ (.tail _ (.tail _ (.tail _ (.tail _ (.head _)))))))))))))) hn (fun _ => rfl) rfl
            (fun y855 hy855 => Swid.xml_reads (h.swid y855 hy855))) rfl)
          (Goes.append (s2 := ({ supplier := x.supplier, author := x.author, publisher := x.publisher, group := x.group, name := some x.name, version := x.version, description := x.description, scope := x.scope, hashes := x.hashes, licenses := x.licenses.map (Licenses.at .v1_3), copyright := x.copyright, cpe := x.cpe, purl := x.purl, swid := x.swid, modified := x.modified } : Component.Vars)) (Goes.to (Goes.opt (fun o s => { s with modified := o }) (.tail _ (.tail _ (.tail _ (.tail _ (.tail _ (.tail _ (.tail _ (.tail _ (.tail _ (.tail _ (.tail _ (.tail _ (.tail _ (.tail _ (.head _))))))))))))))) hn (fun _ => rfl) rfl
            (fun y856 hy856 => reads_bool)) rfl)
          (Goes.append (s2 := ({ supplier := x.supplier, author := x.author, publisher := x.publisher, group := x.group, name := some x.name, version := x.version, description := x.description, scope := x.scope, hashes := x.hashes, licenses := x.licenses.map (Licenses.at .v1_3), copyright := x.copyright, cpe := x.cpe, purl := x.purl, swid := x.swid, modified := x.modified, pedigree := x.pedigree.map (Pedigree.at .v1_3) } : Component.Vars)) (Goes.to (Goes.opt_at (fun o s => { s with pedigree := o }) (.tail _ (.tail _ (.tail _ (.tail _ (.tail _ (.tail _ (.tail _ (.tail _ (.tail _ (.tail _ (.tail _ (.tail _ (.tail _ (.tail _ (.tail _ (.head _)))))))))))))))) hn (fun _ => rfl) rfl
            (fun y857 hy857 => Pedigree.xml_readsWith .v1_3 (h.pedigree y857 hy857))) rfl)
          (Goes.append (s2 := ({ supplier := x.supplier, author := x.author, publisher := x.publisher, group := x.group, name := some x.name, version := x.version, description := x.description, scope := x.scope, hashes := x.hashes, licenses := x.licenses.map (Licenses.at .v1_3), copyright := x.copyright, cpe := x.cpe, purl := x.purl, swid := x.swid, modified := x.modified, pedigree := x.pedigree.map (Pedigree.at .v1_3), externalReferences := x.externalReferences } : Component.Vars)) (Goes.to (Goes.opt (fun o s => { s with externalReferences := o }) (.tail _ (.tail _ (.tail _ (.tail _ (.tail _ (.tail _ (.tail _ (.tail _ (.tail _ (.tail _ (.tail _ (.tail _ (.tail _ (.tail _ (.tail _ (.tail _ (.head _))))))))))))))))) hn (fun _ => rfl) rfl
            (fun y858 hy858 => reads_list (fun y859 hy859 => ExternalReference.xml_reads ((h.externalReferences y858 hy858) y859 hy859)) (fun _ _ => ExternalReference.xml_wf))) rfl)
          (Goes.append (s2 := ({ supplier := x.supplier, author := x.author, publisher := x.publisher, group := x.group, name := some x.name, version := x.version, description := x.description, scope := x.scope, hashes := x.hashes, licenses := x.licenses.map (Licenses.at .v1_3), copyright := x.copyright, cpe := x.cpe, purl := x.purl, swid := x.swid, modified := x.modified, pedigree := x.pedigree.map (Pedigree.at .v1_3), externalReferences := x.externalReferences, properties := x.properties } : Component.Vars)) (Goes.to (Goes.opt (fun o s => { s with properties := o }) (.tail _ (.tail _ (.tail _ (.tail _ (.tail _ (.tail _ (.tail _ (.tail _ (.tail _ (.tail _ (.tail _ (.tail _ (.tail _ (.tail _ (.tail _ (.tail _ (.tail _ (.head _)))))))))))))))))) hn (fun _ => rfl) rfl
            (fun y860 hy860 => reads_listLax (fun y861 hy861 => Property.xml_reads ((h.properties y860 hy860) y861 hy861)) (fun _ _ => Property.xml_wf))) rfl)
          (Goes.append (s2 := ({ supplier := x.supplier, author := x.author, publisher := x.publisher, group := x.group, name := some x.name, version := x.version, description := x.description, scope := x.scope, hashes := x.hashes, licenses := x.licenses.map (Licenses.at .v1_3), copyright := x.copyright, cpe := x.cpe, purl := x.purl, swid := x.swid, modified := x.modified, pedigree := x.pedigree.map (Pedigree.at .v1_3), externalReferences := x.externalReferences, properties := x.properties, components := x.components.map (List.map (Component.at .v1_3)) } : Component.Vars)) (Goes.to (Goes.opt_at (fun o s => { s with components := o }) (.tail _ (.tail _ (.tail _ (.tail _ (.tail _ (.tail _ (.tail _ (.tail _ (.tail _ (.tail _ (.tail _ (.tail _ (.tail _ (.tail _ (.tail _ (.tail _ (.tail _ (.tail _ (.head _))))))))))))))))))) hn (fun _ => rfl) rfl
            (fun y862 hy862 => reads_listLax_at (fun y863 hy863 => ((h.components y862 hy862) y863 hy863)) (fun _ _ => (Component.xml_wf fun _ => rfl)))) rfl)
          (Goes.append (s2 := ({ supplier := x.supplier, author := x.author, publisher := x.publisher, group := x.group, name := some x.name, version := x.version, description := x.description, scope := x.scope, hashes := x.hashes, licenses := x.licenses.map (Licenses.at .v1_3), copyright := x.copyright, cpe := x.cpe, purl := x.purl, swid := x.swid, modified := x.modified, pedigree := x.pedigree.map (Pedigree.at .v1_3), externalReferences := x.externalReferences, properties := x.properties, components := x.components.map (List.map (Component.at .v1_3)), evidence := x.evidence.map (ComponentEvidence.at .v1_3) } : Component.Vars)) (Goes.to (Goes.opt_at (fun o s => { s with evidence := o }) (.tail _ (.tail _ (.tail _ (.tail _ (.tail _ (.tail _ (.tail _ (.tail _ (.tail _ (.tail _ (.tail _ (.tail _ (.tail _ (.tail _ (.tail _ (.tail _ (.tail _ (.tail _ (.tail _ (.head _)))))))))))))))))))) hn (fun _ => rfl) rfl
            (fun y864 hy864 => reads_if (h.evidence y864 hy864).2 (ComponentEvidence.xml_reads .v1_3 (h.evidence y864 hy864).1))) rfl)
          (Goes.append (s2 := ({ supplier := x.supplier, author := x.author, publisher := x.publisher, group := x.group, name := some x.name, version := x.version, description := x.description, scope := x.scope, hashes := x.hashes, licenses := x.licenses.map (Licenses.at .v1_3), copyright := x.copyright, cpe := x.cpe, purl := x.purl, swid := x.swid, modified := x.modified, pedigree := x.pedigree.map (Pedigree.at .v1_3), externalReferences := x.externalReferences, properties := x.properties, components := x.components.map (List.map (Component.at .v1_3)), evidence := x.evidence.map (ComponentEvidence.at .v1_3) } : Component.Vars)) (Goes.to (Goes.nil) rfl)
          (Goes.append (s2 := ({ supplier := x.supplier, author := x.author, publisher := x.publisher, group := x.group, name := some x.name, version := x.version, description := x.description, scope := x.scope, hashes := x.hashes, licenses := x.licenses.map (Licenses.at .v1_3), copyright := x.copyright, cpe := x.cpe, purl := x.purl, swid := x.swid, modified := x.modified, pedigree := x.pedigree.map (Pedigree.at .v1_3), externalReferences := x.externalReferences, properties := x.properties, components := x.components.map (List.map (Component.at .v1_3)), evidence := x.evidence.map (ComponentEvidence.at .v1_3) } : Component.Vars)) (Goes.to (Goes.nil) rfl)
          (Goes.nil)
          .nil)
          .nil)
          (writeOpt_wf fun _ _ => (if_wf ComponentEvidence.xml_wf)))
          (writeOpt_wf fun _ _ => (writeList_wf fun _ _ => (Component.xml_wf fun _ => rfl))))
          (writeOpt_wf fun _ _ => (writeList_wf fun _ _ => Property.xml_wf)))
          (writeOpt_wf fun _ _ => (writeList_wf fun _ _ => ExternalReference.xml_wf)))
          (writeOpt_wf fun _ _ => (Pedigree.xml_wf fun _ => rfl)))
          (writeOpt_wf fun _ _ => writeSimple_wf))
          (writeOpt_wf fun _ _ => Swid.xml_wf))
          (writeOpt_wf fun _ _ => writeSimple_wf))
          (writeOpt_wf fun _ _ => writeSimple_wf))
          (writeOpt_wf fun _ _ => writeSimple_wf))
          (writeOpt_wf fun _ _ => Licenses.xml_wf))
          (writeOpt_wf fun _ _ => (writeList_wf fun _ _ => Hash.xml_wf)))
          (writeOpt_wf fun _ _ => writeSimple_wf))
          (writeOpt_wf fun _ _ => writeSimple_wf))
          (writeOpt_wf fun _ _ => writeSimple_wf))
          (writeSimple_wf))
          (writeOpt_wf fun _ _ => writeSimple_wf))
          (writeOpt_wf fun _ _ => writeSimple_wf))
          (writeOpt_wf fun _ _ => writeSimple_wf))
          (writeOpt_wf fun _ _ => (if_wf OrganizationalEntity.xml_wf))) ?_
    · refine bindOk (reqAttr_mk ha (.head _)) ?_
      exact congrArg Except.ok (congrPair rfl (congrPair (optAttr_mk ha (.tail _ (.head _))) (optAttr_mk ha (.tail _ (.tail _ (.head _))))))
    · refine bindOk rfl ?_
      refine bindOk (required_some (h.version_some rfl)) ?_
      show Except.ok _ = Except.ok _
      apply congrArg Except.ok
      rw [show Classification.new (Classification.display x.componentType) = x.componentType from h.componentType]
      rfl
  | v1_4 =>
    have hn : ["supplier", "author", "publisher", "group", "name", "version", "description", "scope", "hashes", "licenses", "copyright", "cpe", "purl", "swid", "modified", "pedigree", "externalReferences", "properties", "components", "evidence", "signature"].Nodup := by decide
    have ha : ["type", "mime-type", "bom-ref"].Nodup := by decide
    refine reads_struct (p := (Classification.display x.componentType, x.mimeType, x.bomRef)) (Component.xml_body_wfWith (fun _ => rfl) (fun _ _ => Component.xml_wf fun _ => rfl)) ?_
        (Goes.append (s2 := ({ supplier := x.supplier } : Component.Vars)) (Goes.to (Goes.opt (fun o s => { s with supplier := o }) (.head _) hn (fun _ => rfl) rfl
            (fun y865 hy865 => reads_if (h.supplier y865 hy865).2 (OrganizationalEntity.xml_reads (h.supplier y865 hy865).1))) rfl)
          (Goes.append (s2 := ({ supplier := x.supplier, author := x.author } : Component.Vars)) (Goes.to (Goes.opt (fun o s => { s with author := o }) (.tail _ (.head _)) hn (fun _ => rfl) rfl
            (fun y866 hy866 => reads_simple (h.author y866 hy866))) rfl)
          (Goes.append (s2 := ({ supplier := x.supplier, author := x.author, publisher := x.publisher } : Component.Vars)) (Goes.to (Goes.opt (fun o s => { s with publisher := o }) (.tail _ (.tail _ (.head _))) hn (fun _ => rfl) rfl
            (fun y867 hy867 => reads_simple (h.publisher y867 hy867))) rfl)
          (Goes.append (s2 := ({ supplier := x.supplier, author := x.author, publisher := x.publisher, group := x.group } : Component.Vars)) (Goes.to (Goes.opt (fun o s => { s with group := o }) (.tail _ (.tail _ (.tail _ (.head _)))) hn (fun _ => rfl) rfl
            (fun y868 hy868 => reads_simple (h.group y868 hy868))) rfl)
          (Goes.append (s2 := ({ supplier := x.supplier, author := x.author, publisher := x.publisher, group := x.group, name := some x.name } : Component.Vars)) (Goes.to (Goes.one (reads_simple h.name) (.tail _ (.tail _ (.tail _ (.tail _ (.head _))))) hn) rfl)
          (Goes.append (s2 := ({ supplier := x.supplier, author := x.author, publisher := x.publisher, group := x.group, name := some x.name, version := x.version } : Component.Vars)) (Goes.to (Goes.opt (fun o s => { s with version := o }) (.tail _ (.tail _ (.tail _ (.tail _ (.tail _ (.head _)))))) hn (fun _ => rfl) rfl
            (fun y869 hy869 => reads_simple (h.version y869 hy869))) rfl)
          (Goes.append (s2 := ({ supplier := x.supplier, author := x.author, publisher := x.publisher, group := x.group, name := some x.name, version := x.version, description := x.description } : Component.Vars)) (Goes.to (Goes.opt (fun o s => { s with description := o }) (.tail _ (.tail _ (.tail _ (.tail _ (.tail _ (.tail _ (.head _))))))) hn (fun _ => rfl) rfl
            (fun y870 hy870 => reads_simple (h.description y870 hy870))) rfl)
          (Goes.append (s2 := ({ supplier := x.supplier, author := x.author, publisher := x.publisher, group := x.group, name := some x.name, version := x.version, description := x.description, scope := x.scope } : Component.Vars)) (Goes.to (Goes.opt (fun o s => { s with scope := o }) (.tail _ (.tail _ (.tail _ (.tail _ (.tail _ (.tail _ (.tail _ (.head _)))))))) hn (fun _ => rfl) rfl
            (fun y871 hy871 => reads_enum (h.scope y871 hy871))) rfl)
          (Goes.append (s2 := ({ supplier := x.supplier, author := x.author, publisher := x.publisher, group := x.group, name := some x.name, version := x.version, description := x.description, scope := x.scope, hashes := x.hashes } : Component.Vars)) (Goes.to (Goes.opt (fun o s => { s with hashes := o }) (.tail _ (.tail _ (.tail _ (.tail _ (.tail _ (.tail _ (.tail _ (.tail _ (.head _))))))))) hn (fun _ => rfl) rfl
            (fun y872 hy872 => reads_list (fun y873 hy873 => Hash.xml_reads ((h.hashes y872 hy872) y873 hy873)) (fun _ _ => Hash.xml_wf))) rfl)
          (Goes.append (s2 := ({ supplier := x.supplier, author := x.author, publisher := x.publisher, group := x.group, name := some x.name, version := x.version, description := x.description, scope := x.scope, hashes := x.hashes, licenses := x.licenses.map (Licenses.at .v1_4) } : Component.Vars)) (Goes.to (Goes.opt_at (fun o s => { s with licenses := o }) (.tail _ (.tail _ (.tail _ (.tail _ (.tail _ (.tail _ (.tail _ (.tail _ (.tail _ (.head _)))))))))) hn (fun _ => rfl) rfl
            (fun y874 hy874 => Licenses.xml_reads .v1_4 (h.licenses y874 hy874))) rfl)
          (Goes.append (s2 := ({ supplier := x.supplier, author := x.author, publisher := x.publisher, group := x.group, name := some x.name, version := x.version, description := x.description, scope := x.scope, hashes := x.hashes, licenses := x.licenses.map (Licenses.at .v1_4), copyright := x.copyright } : Component.Vars)) (Goes.to (Goes.opt (fun o s => { s with copyright := o }) (.tail _ (.tail _ (.tail _ (.tail _ (.tail _ (.tail _ (.tail _ (.tail _ (.tail _ (.tail _ (.head _))))))))))) hn (fun _ => rfl) rfl
            (fun y875 hy875 => reads_simple (h.copyright y875 hy875))) rfl)
          (Goes.append (s2 := ({ supplier := x.supplier, author := x.author, publisher := x.publisher, group := x.group, name := some x.name, version := x.version, description := x.description, scope := x.scope, hashes := x.hashes, licenses := x.licenses.map (Licenses.at .v1_4), copyright := x.copyright, cpe := x.cpe } : Component.Vars)) (Goes.to (Goes.opt (fun o s => { s with cpe := o }) (.tail _ (.tail _ (.tail _ (.tail _ (.tail _ (.tail _ (.tail _ (.tail _ (.tail _ (.tail _ (.tail _ (.head _)))))))))))) hn (fun _ => rfl) rfl
            (fun y876 hy876 => reads_simple (h.cpe y876 hy876))) rfl)
          (Goes.append (s2 := ({ supplier := x.supplier, author := x.author, publisher := x.publisher, group := x.group, name := some x.name, version := x.version, description := x.description, scope := x.scope, hashes := x.hashes, licenses := x.licenses.map (Licenses.at .v1_4), copyright := x.copyright, cpe := x.cpe, purl := x.purl } : Component.Vars)) (Goes.to (Goes.opt (fun o s => { s with purl := o }) (.tail _ (.tail _ (.tail _ (.tail _ (.tail _ (.tail _ (.tail _ (.tail _ (.tail _ (.tail _ (.tail _ (.tail _ (.head _))))))))))))) hn (fun _ => rfl) rfl
            (fun y877 hy877 => reads_simple (h.purl y877 hy877))) rfl)
          (Goes.append (s2 := ({ supplier := x.supplier, author := x.author, publisher := x.publisher, group := x.group, name := some x.name, version := x.version, description := x.description, scope := x.scope, hashes := x.hashes, licenses := x.licenses.map (Licenses.at .v1_4), copyright := x.copyright, cpe := x.cpe, purl := x.purl, swid := x.swid } : Component.Vars)) (Goes.to (Goes.opt (fun o s => { s with swid := o }) (.tail _ (.tail _ (.tail _ (.tail _ (.tail _ (.tail _ (.tail _ (.tail _ (.tail _ (.tail _ (.tail _ (.tail _ (.tail _ (.head _)))))))))))))) hn (fun _ => rfl) rfl
            (fun y878 hy878 => Swid.xml_reads (h.swid y878 hy878))) rfl)
          (Goes.append (s2 := ({ supplier := x.supplier, author := x.author, publisher := x.publisher, group := x.group, name := some x.name, version := x.version, description := x.description, scope := x.scope, hashes := x.hashes, licenses := x.licenses.map (Licenses.at .v1_4), copyright := x.copyright, cpe := x.cpe, purl := x.purl, swid := x.swid, modified := x.modified } : Component.Vars)) (Goes.to (Goes.opt (fun o s => { s with modified := o }) (.tail _ (.tail _ (.tail _ (.tail _ (.tail _ (.tail _ (.tail _ (.tail _ (.tail _ (.tail _ (.tail _ (.tail _ (.tail _ (.tail _ (.head _))))))))))))))) hn (fun _ => rfl) rfl
            (fun y879 hy879 => reads_bool)) rfl)
          (Goes.append (s2 := ({ supplier := x.supplier, author := x.author, publisher := x.publisher, group := x.group, name := some x.name, version := x.version, description := x.description, scope := x.scope, hashes := x.hashes, licenses := x.licenses.map (Licenses.at .v1_4), copyright := x.copyright, cpe := x.cpe, purl := x.purl, swid := x.swid, modified := x.modified, pedigree := x.pedigree.map (Pedigree.at .v1_4) } : Component.Vars)) (Goes.to (Goes.opt_at (fun o s => { s with pedigree := o }) (.tail _ (.tail _ (.tail _ (.tail _ (.tail _ (.tail _ (.tail _ (.tail _ (.tail _ (.tail _ (.tail _ (.tail _ (.tail _ (.tail _ (.tail _ (.head _)))))))))))))))) hn (fun _ => rfl) rfl
            (fun y880 hy880 => Pedigree.xml_readsWith .v1_4 (h.pedigree y880 hy880))) rfl)
          (Goes.append (s2 := ({ supplier := x.supplier, author := x.author, publisher := x.publisher, group := x.group, name := some x.name, version := x.version, description := x.description, scope := x.scope, hashes := x.hashes, licenses := x.licenses.map (Licenses.at .v1_4), copyright := x.copyright, cpe := x.cpe, purl := x.purl, swid := x.swid, modified := x.modified, pedigree := x.pedigree.map (Pedigree.at .v1_4), externalReferences := x.externalReferences } : Component.Vars)) (Goes.to (Goes.opt (fun o s => { s with externalReferences := o }) (.tail _ (.tail _ (.tail _ (.tail _ (.tail _ (.tail _ (.tail _ (.tail _ (.tail _ (.tail _ (.tail _ (.tail _ (.tail _ (.tail _ (.tail _ (.tail _ (.head _))))))))))))))))) hn (fun _ => rfl) rfl
            (fun y881 hy881 => reads_list (fun y882 hy882 => ExternalReference.xml_reads ((h.externalReferences y881 hy881) y882 hy882)) (fun _ _ => ExternalReference.xml_wf))) rfl)
          (Goes.append (s2 := ({ supplier := x.supplier, author := x.author, publisher := x.publisher, group := x.group, name := some x.name, version := x.version, description := x.description, scope := x.scope, hashes := x.hashes, licenses := x.licenses.map (Licenses.at .v1_4), copyright := x.copyright, cpe := x.cpe, purl := x.purl, swid := x.swid, modified := x.modified, pedigree := x.pedigree.map (Pedigree.at .v1_4), externalReferences := x.externalReferences, properties := x.properties } : Component.Vars)) (Goes.to (Goes.opt (fun o s => { s with properties := o }) (.tail _ (.tail _ (.tail _ (.tail _ (.tail _ (.tail _ (.tail _ (.tail _ (.tail _ (.tail _ (.tail _ (.tail _ (.tail _ (.tail _ (.tail _ (.tail _ (.tail _ (.head _)))))))))))))))))) hn (fun _ => rfl) rfl
            (fun y883 hy883 => reads_listLax (fun y884 hy884 => Property.xml_reads ((h.properties y883 hy883) y884 hy884)) (fun _ _ => Property.xml_wf))) rfl)
          (Goes.append (s2 := ({ supplier := x.supplier, author := x.author, publisher := x.publisher, group := x.group, name := some x.name, version := x.version, description := x.description, scope := x.scope, hashes := x.hashes, licenses := x.licenses.map (Licenses.at .v1_4), copyright := x.copyright, cpe := x.cpe, purl := x.purl, swid := x.swid, modified := x.modified, pedigree := x.pedigree.map (Pedigree.at .v1_4), externalReferences := x.externalReferences, properties := x.properties, components := x.components.map (List.map (Component.at .v1_4)) } : Component.Vars)) (Goes.to (Goes.opt_at (fun o s => { s with components := o }) (.tail _ (.tail _ (.tail _ (.tail _ (.tail _ (.tail _ (.tail _ (.tail _ (.tail _ (.tail _ (.tail _ (.tail _ (.tail _ (.tail _ (.tail _ (.tail _ (.tail _ (.tail _ (.head _))))))))))))))))))) hn (fun _ => rfl) rfl
            (fun y885 hy885 => reads_listLax_at (fun y886 hy886 => ((h.components y885 hy885) y886 hy886)) (fun _ _ => (Component.xml_wf fun _ => rfl)))) rfl)
          (Goes.append (s2 := ({ supplier := x.supplier, author := x.author, publisher := x.publisher, group := x.group, name := some x.name, version := x.version, description := x.description, scope := x.scope, hashes := x.hashes, licenses := x.licenses.map (Licenses.at .v1_4), copyright := x.copyright, cpe := x.cpe, purl := x.purl, swid := x.swid, modified := x.modified, pedigree := x.pedigree.map (Pedigree.at .v1_4), externalReferences := x.externalReferences, properties := x.properties, components := x.components.map (List.map (Component.at .v1_4)), evidence := x.evidence.map (ComponentEvidence.at .v1_4) } : Component.Vars)) (Goes.to (Goes.opt_at (fun o s => { s with evidence := o }) (.tail _ (.tail _ (.tail _ (.tail _ (.tail _ (.tail _ (.tail _ (.tail _ (.tail _ (.tail _ (.tail _ (.tail _ (.tail _ (.tail _ (.tail _ (.tail _ (.tail _ (.tail _ (.tail _ (.head _)))))))))))))))))))) hn (fun _ => rfl) rfl
            (fun y887 hy887 => reads_if (h.evidence y887 hy887).2 (ComponentEvidence.xml_reads .v1_4 (h.evidence y887 hy887).1))) rfl)
          (Goes.append (s2 := ({ supplier := x.supplier, author := x.author, publisher := x.publisher, group := x.group, name := some x.name, version := x.version, description := x.description, scope := x.scope, hashes := x.hashes, licenses := x.licenses.map (Licenses.at .v1_4), copyright := x.copyright, cpe := x.cpe, purl := x.purl, swid := x.swid, modified := x.modified, pedigree := x.pedigree.map (Pedigree.at .v1_4), externalReferences := x.externalReferences, properties := x.properties, components := x.components.map (List.map (Component.at .v1_4)), evidence := x.evidence.map (ComponentEvidence.at .v1_4), signature := x.signature } : Component.Vars)) (Goes.to (Goes.opt (fun o s => { s with signature := o }) (.tail _ (.tail _ (.tail _ (.tail _ (.tail _ (.tail _ (.tail _ (.tail _ (.tail _ (.tail _ (.tail _ (.tail _ (.tail _ (.tail _ (.tail _ (.tail _ (.tail _ (.tail _ (.tail _ (.tail _ (.head _))))))))))))))))))))) hn (fun _ => rfl) rfl
            (fun y888 hy888 => Signature.xml_reads ((h.signature nofun) y888 hy888))) rfl)
          (Goes.append (s2 := ({ supplier := x.supplier, author := x.author, publisher := x.publisher, group := x.group, name := some x.name, version := x.version, description := x.description, scope := x.scope, hashes := x.hashes, licenses := x.licenses.map (Licenses.at .v1_4), copyright := x.copyright, cpe := x.cpe, purl := x.purl, swid := x.swid, modified := x.modified, pedigree := x.pedigree.map (Pedigree.at .v1_4), externalReferences := x.externalReferences, properties := x.properties, components := x.components.map (List.map (Component.at .v1_4)), evidence := x.evidence.map (ComponentEvidence.at .v1_4), signature := x.signature } : Component.Vars)) (Goes.to (Goes.nil) rfl)
          (Goes.nil)
          .nil)
          (writeOpt_wf fun _ _ => Signature.xml_wf))
          (writeOpt_wf fun _ _ => (if_wf ComponentEvidence.xml_wf)))
          (writeOpt_wf fun _ _ => (writeList_wf fun _ _ => (Component.xml_wf fun _ => rfl))))
          (writeOpt_wf fun _ _ => (writeList_wf fun _ _ => Property.xml_wf)))
          (writeOpt_wf fun _ _ => (writeList_wf fun _ _ => ExternalReference.xml_wf)))
          (writeOpt_wf fun _ _ => (Pedigree.xml_wf fun _ => rfl)))
          (writeOpt_wf fun _ _ => writeSimple_wf))
          (writeOpt_wf fun _ _ => Swid.xml_wf))
          (writeOpt_wf fun _ _ => writeSimple_wf))
          (writeOpt_wf fun _ _ => writeSimple_wf))
          (writeOpt_wf fun _ _ => writeSimple_wf))
          (writeOpt_wf fun _ _ => Licenses.xml_wf))
          (writeOpt_wf fun _ _ => (writeList_wf fun _ _ => Hash.xml_wf)))
          (writeOpt_wf fun _ _ => writeSimple_wf))
          (writeOpt_wf fun _ _ => writeSimple_wf))
          (writeOpt_wf fun _ _ => writeSimple_wf))
          (writeSimple_wf))
          (writeOpt_wf fun _ _ => writeSimple_wf))
          (writeOpt_wf fun _ _ => writeSimple_wf))
          (writeOpt_wf fun _ _ => writeSimple_wf))
          (writeOpt_wf fun _ _ => (if_wf OrganizationalEntity.xml_wf))) ?_
    · refine bindOk (reqAttr_mk ha (.head _)) ?_
      exact congrArg Except.ok (congrPair rfl (congrPair (optAttr_mk ha (.tail _ (.head _))) (optAttr_mk ha (.tail _ (.tail _ (.head _))))))
    · show Except.ok _ = Except.ok _
      apply congrArg Except.ok
      rw [show Classification.new (Classification.display x.componentType) = x.componentType from h.componentType]
      rfl
  | v1_5 =>
    have hn : ["supplier", "author", "publisher", "group", "name", "version", "description", "scope", "hashes", "licenses", "copyright", "cpe", "purl", "swid", "modified", "pedigree", "externalReferences", "properties", "components", "evidence", "signature", "modelCard", "data"].Nodup := by decide
    have ha : ["type", "mime-type", "bom-ref"].Nodup := by decide
    refine reads_struct (p := (Classification.display x.componentType, x.mimeType, x.bomRef)) (Component.xml_body_wfWith (fun _ => rfl) (fun _ _ => Component.xml_wf fun _ => rfl)) ?_
        (Goes.append (s2 := ({ supplier := x.supplier } : Component.Vars)) (Goes.to (Goes.opt (fun o s => { s with supplier := o }) (.head _) hn (fun _ => rfl) rfl
            (fun y889 hy889 => reads_if (h.supplier y889 hy889).2 (OrganizationalEntity.xml_reads (h.supplier y889 hy889).1))) rfl)
          (Goes.append (s2 := ({ supplier := x.supplier, author := x.author } : Component.Vars)) (Goes.to (Goes.opt (fun o s => { s with author := o }) (.tail _ (.head _)) hn (fun _ => rfl) rfl
            (fun y890 hy890 => reads_simple (h.author y890 hy890))) rfl)
          (Goes.append (s2 := ({ supplier := x.supplier, author := x.author, publisher := x.publisher } : Component.Vars)) (Goes.to (Goes.opt (fun o s => { s with publisher := o }) (.tail _ (.tail _ (.head _))) hn (fun _ => rfl) rfl
            (fun y891 hy891 => reads_simple (h.publisher y891 hy891))) rfl)
          (Goes.append (s2 := ({ supplier := x.supplier, author := x.author, publisher := x.publisher, group := x.group } : Component.Vars)) (Goes.to (Goes.opt (fun o s => { s with group := o }) (.tail _ (.tail _ (.tail _ (.head _)))) hn (fun _ => rfl) rfl
            (fun y892 hy892 => reads_simple (h.group y892 hy892))) rfl)
          (Goes.append (s2 := ({ supplier := x.supplier, author := x.author, publisher := x.publisher, group := x.group, name := some x.name } : Component.Vars)) (Goes.to (Goes.one (reads_simple h.name) (.tail _ (.tail _ (.tail _ (.tail _ (.head _))))) hn) rfl)
          (Goes.append (s2 := ({ supplier := x.supplier, author := x.author, publisher := x.publisher, group := x.group, name := some x.name, version := x.version } : Component.Vars)) (Goes.to (Goes.opt (fun o s => { s with version := o }) (.tail _ (.tail _ (.tail _ (.tail _ (.tail _ (.head _)))))) hn (fun _ => rfl) rfl
            (fun y893 hy893 => reads_simple (h.version y893 hy893))) rfl)
          (Goes.append (s2 := ({ supplier := x.supplier, author := x.author, publisher := x.publisher, group := x.group, name := some x.name, version := x.version, description := x.description } : Component.Vars)) (Goes.to (Goes.opt (fun o s => { s with description := o }) (.tail _ (.tail _ (.tail _ (.tail _ (.tail _ (.tail _ (.head _))))))) hn (fun _ => rfl) rfl
            (fun y894 hy894 => reads_simple (h.description y894 hy894))) rfl)
          (Goes.append (s2 := ({ supplier := x.supplier, author := x.author, publisher := x.publisher, group := x.group, name := some x.name, version := x.version, description := x.description, scope := x.scope } : Component.Vars)) (Goes.to (Goes.opt (fun o s => { s with scope := o }) (.tail _ (.tail _ (.tail _ (.tail _ (.tail _ (.tail _ (.tail _ (.head _)))))))) hn (fun _ => rfl) rfl
            (fun y895 hy895 => reads_enum (h.scope y895 hy895))) rfl)
          (Goes.append (s2 := ({ supplier := x.supplier, author := x.author, publisher := x.publisher, group := x.group, name := some x.name, version := x.version, description := x.description, scope := x.scope, hashes := x.hashes } : Component.Vars)) (Goes.to (Goes.opt (fun o s => { s with hashes := o }) (.tail _ (.tail _ (.tail _ (.tail _ (.tail _ (.tail _ (.tail _ (.tail _ (.head _))))))))) hn (fun _ => rfl) rfl
            (fun y896 hy896 => reads_list (fun y897 hy897 => Hash.xml_reads ((h.hashes y896 hy896) y897 hy897)) (fun _ _ => Hash.xml_wf))) rfl)
          (Goes.append (s2 := ({ supplier := x.supplier, author := x.author, publisher := x.publisher, group := x.group, name := some x.name, version := x.version, description := x.description, scope := x.scope, hashes := x.hashes, licenses := x.licenses.map (Licenses.at .v1_5) } : Component.Vars)) (Goes.to (Goes.opt_at (fun o s => { s with licenses := o }) (.tail _ (.tail _ (.tail _ (.tail _ (.tail _ (.tail _ (.tail _ (.tail _ (.tail _ (.head _)))))))))) hn (fun _ => rfl) rfl
            (fun y898 hy898 => Licenses.xml_reads .v1_5 (h.licenses y898 hy898))) rfl)
          (Goes.append (s2 := ({ supplier := x.supplier, author := x.author, publisher := x.publisher, group := x.group, name := some x.name, version := x.version, description := x.description, scope := x.scope, hashes := x.hashes, licenses := x.licenses.map (Licenses.at .v1_5), copyright := x.copyright } : Component.Vars)) (Goes.to (Goes.opt (fun o s => { s with copyright := o }) (.tail _ (.tail _ (.tail _ (.tail _ (.tail _ (.tail _ (.tail _ (.tail _ (.tail _ (.tail _ (.head _))))))))))) hn (fun _ => rfl) rfl
            (fun y899 hy899 => reads_simple (h.copyright y899 hy899))) rfl)
          (Goes.append (s2 := ({ supplier := x.supplier, author := x.author, publisher := x.publisher, group := x.group, name := some x.name, version := x.version, description := x.description, scope := x.scope, hashes := x.hashes, licenses := x.licenses.map (Licenses.at .v1_5), copyright := x.copyright, cpe := x.cpe } : Component.Vars)) (Goes.to (Goes.opt (fun o s => { s with cpe := o }) (.tail _ (.tail _ (.tail _ (.tail _ (.tail _ (.tail _ (.tail _ (.tail _ (.tail _ (.tail _ (.tail _ (.head _)))))))))))) hn (fun _ => rfl) rfl
            (fun y900 hy900 => reads_simple (h.cpe y900 hy900))) rfl)
          (Goes.append (s2 := ({ supplier := x.supplier, author := x.author, publisher := x.publisher, group := x.group, name := some x.name, version := x.version, description := x.description, scope := x.scope, hashes := x.hashes, licenses := x.licenses.map (Licenses.at .v1_5), copyright := x.copyright, cpe := x.cpe, purl := x.purl } : Component.Vars)) (Goes.to (Goes.opt (fun o s => { s with purl := o }) (.tail _ (.tail _ (.tail _ (.tail _ (.tail _ (.tail _ (.tail _ (.tail _ (.tail _ (.tail _ (.tail _ (.tail _ (.head _))))))))))))) hn (fun _ => rfl) rfl
            (fun y901 hy901 => reads_simple (h.purl y901 hy901))) rfl)
          (Goes.append (s2 := ({ supplier := x.supplier, author := x.author, publisher := x.publisher, group := x.group, name := some x.name, version := x.version, description := x.description, scope := x.scope, hashes := x.hashes, licenses := x.licenses.map (Licenses.at .v1_5), copyright := x.copyright, cpe := x.cpe, purl := x.purl, swid := x.swid } : Component.Vars)) (Goes.to (Goes.opt (fun o s => { s with swid := o }) (.tail _ (.tail _ (.tail _ (.tail _ (.tail _ (.tail _ (.tail _ (.tail _ (.tail _ (.tail _ (.tail _ (.tail _ (.tail _ (.head _)))))))))))))) hn (fun _ => rfl) rfl
            (fun y902 hy902 => Swid.xml_reads (h.swid y902 hy902))) rfl)
          (Goes.append (s2 := ({ supplier := x.supplier, author := x.author, publisher := x.publisher, group := x.group, name := some x.name, version := x.version, description := x.description, scope := x.scope, hashes := x.hashes, licenses := x.licenses.map (Licenses.at .v1_5), copyright := x.copyright, cpe := x.cpe, purl := x.purl, swid := x.swid, modified := x.modified } : Component.Vars)) (Goes.to (Goes.opt (fun o s => { s with modified := o }) (.tail _ (.tail _ (.tail _ (.tail _ (.tail _ (.tail _ (.tail _ (.tail _ (.tail _ (.tail _ (.tail _ (.tail _ (.tail _ (.tail _ (.head _))))))))))))))) hn (fun _ => rfl) rfl
            (fun y903 hy903 => reads_bool)) rfl)
          (Goes.append (s2 := ({ supplier := x.supplier, author := x.author, publisher := x.publisher, group := x.group, name := some x.name, version := x.version, description := x.description, scope := x.scope, hashes := x.hashes, licenses := x.licenses.map (Licenses.at .v1_5), copyright := x.copyright, cpe := x.cpe, purl := x.purl, swid := x.swid, modified := x.modified, pedigree := x.pedigree.map (Pedigree.at .v1_5) } : Component.Vars)) (Goes.to (Goes.opt_at (fun o s => { s with pedigree := o }) (.tail _ (.tail _ (.tail _ (.tail _ (.tail _ (.tail _ (.tail _ (.tail _ (.tail _ (.tail _ (.tail _ (.tail _ (.tail _ (.tail _ (.tail _ (.head _)))))))))))))))) hn (fun _ => rfl) rfl
            (fun y904 hy904 => Pedigree.xml_readsWith .v1_5 (h.pedigree y904 hy904))) rfl)
          (Goes.append (s2 := ({ supplier := x.supplier, author := x.author, publisher := x.publisher, group := x.group, name := some x.name, version := x.version, description := x.description, scope := x.scope, hashes := x.hashes, licenses := x.licenses.map (Licenses.at .v1_5), copyright := x.copyright, cpe := x.cpe, purl := x.purl, swid := x.swid, modified := x.modified, pedigree := x.pedigree.map (Pedigree.at .v1_5), externalReferences := x.externalReferences } : Component.Vars)) (Goes.to (Goes.opt (fun o s => { s with externalReferences := o }) (.tail _ (.tail _ (.tail _ (.tail _ (.tail _ (.tail _ (.tail _ (.tail _ (.tail _ (.tail _ (.tail _ (.tail _ (.tail _ (.tail _ (.tail _ (.tail _ (.head _))))))))))))))))) hn (fun _ => rfl) rfl
            (fun y905 hy905 => reads_list (fun y906 hy906 => ExternalReference.xml_reads ((h.externalReferences y905 hy905) y906 hy906)) (fun _ _ => ExternalReference.xml_wf))) rfl)
          (Goes.append (s2 := ({ supplier := x.supplier, author := x.author, publisher := x.publisher, group := x.group, name := some x.name, version := x.version, description := x.description, scope := x.scope, hashes := x.hashes, licenses := x.licenses.map (Licenses.at .v1_5), copyright := x.copyright, cpe := x.cpe, purl := x.purl, swid := x.swid, modified := x.modified, pedigree := x.pedigree.map (Pedigree.at .v1_5), externalReferences := x.externalReferences, properties := x.properties } : Component.Vars)) (Goes.to (Goes.opt (fun o s => { s with properties := o }) (.tail _ (.tail _ (.tail _ (.tail _ (.tail _ (.tail _ (.tail _ (.tail _ (.tail _ (.tail _ (.tail _ (.tail _ (.tail _ (.tail _ (.tail _ (.tail _ (.tail _ (.head _)))))))))))))))))) hn (fun _ => rfl) rfl
            (fun y907 hy907 => reads_listLax (fun y908 hy908 => Property.xml_reads ((h.properties y907 hy907) y908 hy908)) (fun _ _ => Property.xml_wf))) rfl)
          (Goes.append (s2 := ({ supplier := x.supplier, author := x.author, publisher := x.publisher, group := x.group, name := some x.name, version := x.version, description := x.description, scope := x.scope, hashes := x.hashes, licenses := x.licenses.map (Licenses.at .v1_5), copyright := x.copyright, cpe := x.cpe, purl := x.purl, swid := x.swid, modified := x.modified, pedigree := x.pedigree.map (Pedigree.at .v1_5), externalReferences := x.externalReferences, properties := x.properties, components := x.components.map (List.map (Component.at .v1_5)) } : Component.Vars)) (Goes.to (Goes.opt_at (fun o s => { s with components := o }) (.tail _ (.tail _ (.tail _ (.tail _ (.tail _ (.tail _ (.tail _ (.tail _ (.tail _ (.tail _ (.tail _ (.tail _ (.tail _ (.tail _ (.tail _ (.tail _ (.tail _ (.tail _ (.head _))))))))))))))))))) hn (fun _ => rfl) rfl
            (fun y909 hy909 => reads_listLax_at (fun y910 hy910 => ((h.components y909 hy909) y910 hy910)) (fun _ _ => (Component.xml_wf fun _ => rfl)))) rfl)
          (Goes.append (s2 := ({ supplier := x.supplier, author := x.author, publisher := x.publisher, group := x.group, name := some x.name, version := x.version, description := x.description, scope := x.scope, hashes := x.hashes, licenses := x.licenses.map (Licenses.at .v1_5), copyright := x.copyright, cpe := x.cpe, purl := x.purl, swid := x.swid, modified := x.modified, pedigree := x.pedigree.map (Pedigree.at .v1_5), externalReferences := x.externalReferences, properties := x.properties, components := x.components.map (List.map (Component.at .v1_5)), evidence := x.evidence.map (ComponentEvidence.at .v1_5) } : Component.Vars)) (Goes.to (Goes.opt_at (fun o s => { s with evidence := o }) (.tail _ (.tail _ (.tail _ (.tail _ (.tail _ (.tail _ (.tail _ (.tail _ (.tail _ (.tail _ (.tail _ (.tail _ (.tail _ (.tail _ (.tail _ (.tail _ (.tail _ (.tail _ (.tail _ (.head _)))))))))))))))))))) hn (fun _ => rfl) rfl
            (fun y911 hy911 => reads_if (h.evidence y911 hy911).2 (ComponentEvidence.xml_reads .v1_5 (h.evidence y911 hy911).1))) rfl)
          (Goes.append (s2 := ({ supplier := x.supplier, author := x.author, publisher := x.publisher, group := x.group, name := some x.name, version := x.version, description := x.description, scope := x.scope, hashes := x.hashes, licenses := x.licenses.map (Licenses.at .v1_5), copyright := x.copyright, cpe := x.cpe, purl := x.purl, swid := x.swid, modified := x.modified, pedigree := x.pedigree.map (Pedigree.at .v1_5), externalReferences := x.externalReferences, properties := x.properties, components := x.components.map (List.map (Component.at .v1_5)), evidence := x.evidence.map (ComponentEvidence.at .v1_5), signature := x.signature } : Component.Vars)) (Goes.to (Goes.opt (fun o s => { s with signature := o }) (.tail _ (.tail _ (.tail _ (.tail _ (.tail _ (.tail _ (.tail _ (.tail _ (.tail _ (.tail _ (.tail _ (.tail _ (.tail _ (.tail _ (.tail _ (.tail _ (.tail _ (.tail _ (.tail _ (.tail _ (.head _))))))))))))))))))))) hn (fun _ => rfl) rfl
            (fun y912 hy912 => Signature.xml_reads ((h.signature nofun) y912 hy912))) rfl)
          (Goes.append (s2 := ({ supplier := x.supplier, author := x.author, publisher := x.publisher, group := x.group, name := some x.name, version := x.version, description := x.description, scope := x.scope, hashes := x.hashes, licenses := x.licenses.map (Licenses.at .v1_5), copyright := x.copyright, cpe := x.cpe, purl := x.purl, swid := x.swid, modified := x.modified, pedigree := x.pedigree.map (Pedigree.at .v1_5), externalReferences := x.externalReferences, properties := x.properties, components := x.components.map (List.map (Component.at .v1_5)), evidence := x.evidence.map (ComponentEvidence.at .v1_5), signature := x.signature, modelCard := x.modelCard } : Component.Vars)) (Goes.to (Goes.opt (fun o s => { s with modelCard := o }) (.tail _ (.tail _ (.tail _ (.tail _ (.tail _ (.tail _ (.tail _ (.tail _ (.tail _ (.tail _ (.tail _ (.tail _ (.tail _ (.tail _ (.tail _ (.tail _ (.tail _ (.tail _ (.tail _ (.tail _ (.tail _ (.head _)))))))))))))))))))))) hn (fun _ => rfl) rfl
            (fun y913 hy913 => ModelCard.xml_reads ((h.modelCard rfl) y913 hy913))) rfl)
          (Goes.opt (fun o s => { s with data := o }) (.tail _ (.tail _ (.tail _ (.tail _ (.tail _ (.tail _ (.tail _ (.tail _ (.tail _ (.tail _ (.tail _ (.tail _ (.tail _ (.tail _ (.tail _ (.tail _ (.tail _ (.tail _ (.tail _ (.tail _ (.tail _ (.tail _ (.head _))))))))))))))))))))))) hn (fun _ => rfl) rfl
            (fun y914 hy914 => ComponentData.xml_reads ((h.data rfl) y914 hy914)))
          (writeOpt_wf fun _ _ => ModelCard.xml_wf))
          (writeOpt_wf fun _ _ => Signature.xml_wf))
          (writeOpt_wf fun _ _ => (if_wf ComponentEvidence.xml_wf)))
          (writeOpt_wf fun _ _ => (writeList_wf fun _ _ => (Component.xml_wf fun _ => rfl))))
          (writeOpt_wf fun _ _ => (writeList_wf fun _ _ => Property.xml_wf)))
          (writeOpt_wf fun _ _ => (writeList_wf fun _ _ => ExternalReference.xml_wf)))
          (writeOpt_wf fun _ _ => (Pedigree.xml_wf fun _ => rfl)))
          (writeOpt_wf fun _ _ => writeSimple_wf))
          (writeOpt_wf fun _ _ => Swid.xml_wf))
          (writeOpt_wf fun _ _ => writeSimple_wf))
          (writeOpt_wf fun _ _ => writeSimple_wf))
          (writeOpt_wf fun _ _ => writeSimple_wf))
          (writeOpt_wf fun _ _ => Licenses.xml_wf))
          (writeOpt_wf fun _ _ => (writeList_wf fun _ _ => Hash.xml_wf)))
          (writeOpt_wf fun _ _ => writeSimple_wf))
          (writeOpt_wf fun _ _ => writeSimple_wf))
          (writeOpt_wf fun _ _ => writeSimple_wf))
          (writeSimple_wf))
          (writeOpt_wf fun _ _ => writeSimple_wf))
          (writeOpt_wf fun _ _ => writeSimple_wf))
          (writeOpt_wf fun _ _ => writeSimple_wf))
          (writeOpt_wf fun _ _ => (if_wf OrganizationalEntity.xml_wf))) ?_
    · refine bindOk (reqAttr_mk ha (.head _)) ?_
      exact congrArg Except.ok (congrPair rfl (congrPair (optAttr_mk ha (.tail _ (.head _))) (optAttr_mk ha (.tail _ (.tail _ (.head _))))))
    · show Except.ok _ = Except.ok _
      apply congrArg Except.ok
      rw [show Classification.new (Classification.display x.componentType) = x.componentType from h.componentType]
      rfl

variable [ReadLimit]

theorem Component.json_rtN (v : SpecVersion) : ∀ {n : Nat} {x : Component}, Component.JsonOkN v n x →
    Component.ofJsonN v n (Component.toJson v x) = .ok (x.at v)
  | 0, _, h => h.elim
  | _ + 1, _, h => Component.json_rtWith v (Component.JsonOkWith.imp h fun _ h => Component.json_rtN v h)

theorem Component.json_rt (v : SpecVersion) {x : Component} (h : Component.JsonOk v x) :
    Component.ofJson v (Component.toJson v x) = .ok (x.at v) := Component.json_rtN v h

theorem Component.xml_localN (v : SpecVersion) : ∀ {n : Nat} {tag : String},
    LocalAt tag (Component.readXmlN v n)
  | 0, _ => fun _ _ _ _ _ _ => ⟨.error .depth, fun _ => rfl⟩
  | _ + 1, _ => Component.xml_localWith v (Component.xml_localN v)

theorem Component.xml_local (v : SpecVersion) {tag : String} : LocalAt tag (Component.readXml v) :=
  Component.xml_localN v

theorem Component.xml_readsN (v : SpecVersion) {ns : Option String} : ∀ {n : Nat} {x : Component},
    Component.XmlOkN v n x → Reads ns (Component.writeXml v x) "component" (Component.readXmlN v n) (x.at v)
  | 0, _, h => h.elim
  | _ + 1, _, h => Component.xml_readsWith v (Component.XmlOkWith.imp h fun _ h => Component.xml_readsN v h)

theorem Component.xml_reads (v : SpecVersion) {ns : Option String} {x : Component} (h : Component.XmlOk v x) :
    Reads ns (Component.writeXml v x) "component" (Component.readXml v) (x.at v) := Component.xml_readsN v h

end Cdx
