import Verif.Lemmas.Xml
import Verif.Lemmas.Json
import Verif.Spec.Format.Metadata
import Verif.Lemmas.Format.Component

set_option linter.unusedSectionVars false
set_option linter.unusedSimpArgs false
set_option linter.unusedVariables false

/-!
# Lemmas on the file formats: tools and metadata
-/

namespace Cdx

variable [F32Format]

variable [ReadLimit]

theorem Tool.json_ne_null {v : SpecVersion} {x : Tool} :
    Tool.toJson v x ≠ .null := Json.mk_ne_null _

theorem Tool.json_rt (v : SpecVersion) {x : Tool} (h : Tool.JsonOk v x) :
    Tool.ofJson v (Tool.toJson v x) = .ok (x.at v) := by
  cases v with
  | v1_3 =>
    have hn : ["vendor", "name", "version", "hashes"].Nodup := by decide
    refine bindOk (Json.fields_mk _) ?_
    refine bindOk (Json.opt_id hn (.head _) (fun y920 hy920 => Json.str_ne_null)
        (fun y920 hy920 => rfl)) ?_
    refine bindOk (Json.opt_id hn (.tail _ (.head _)) (fun y921 hy921 => Json.str_ne_null)
        (fun y921 hy921 => rfl)) ?_
    refine bindOk (Json.opt_id hn (.tail _ (.tail _ (.head _))) (fun y922 hy922 => Json.str_ne_null)
        (fun y922 hy922 => rfl)) ?_
    refine bindOk (Json.opt_id hn (.tail _ (.tail _ (.tail _ (.head _)))) (fun y923 hy923 => Json.ofList_ne_null)
        (fun y923 hy923 => Json.array_id (fun y924 hy924 => Hash.json_rt ((h.hashes y923 hy923) y924 hy924)))) ?_
    refine bindOk rfl ?_
    rfl
  | v1_4 =>
    have hn : ["vendor", "name", "version", "hashes", "externalReferences"].Nodup := by decide
    refine bindOk (Json.fields_mk _) ?_
    refine bindOk (Json.opt_id hn (.head _) (fun y925 hy925 => Json.str_ne_null)
        (fun y925 hy925 => rfl)) ?_
    refine bindOk (Json.opt_id hn (.tail _ (.head _)) (fun y926 hy926 => Json.str_ne_null)
        (fun y926 hy926 => rfl)) ?_
    refine bindOk (Json.opt_id hn (.tail _ (.tail _ (.head _))) (fun y927 hy927 => Json.str_ne_null)
        (fun y927 hy927 => rfl)) ?_
    refine bindOk (Json.opt_id hn (.tail _ (.tail _ (.tail _ (.head _)))) (fun y928 hy928 => Json.ofList_ne_null)
        (fun y928 hy928 => Json.array_id (fun y929 hy929 => Hash.json_rt ((h.hashes y928 hy928) y929 hy929)))) ?_
    refine bindOk (Json.opt_id hn (.tail _ (.tail _ (.tail _ (.tail _ (.head _))))) (fun y930 hy930 => Json.ofList_ne_null)
        (fun y930 hy930 => Json.array_id (fun y931 hy931 => ExternalReference.json_rt (((h.externalReferences nofun) y930 hy930) y931 hy931)))) ?_
    rfl
  | v1_5 =>
    have hn : ["vendor", "name", "version", "hashes", "externalReferences"].Nodup := by decide
    refine bindOk (Json.fields_mk _) ?_
    refine bindOk (Json.opt_id hn (.head _) (fun y932 hy932 => Json.str_ne_null)
        (fun y932 hy932 => rfl)) ?_
    refine bindOk (Json.opt_id hn (.tail _ (.head _)) (fun y933 hy933 => Json.str_ne_null)
        (fun y933 hy933 => rfl)) ?_
    refine bindOk (Json.opt_id hn (.tail _ (.tail _ (.head _))) (fun y934 hy934 => Json.str_ne_null)
        (fun y934 hy934 => rfl)) ?_
    refine bindOk (Json.opt_id hn (.tail _ (.tail _ (.tail _ (.head _)))) (fun y935 hy935 => Json.ofList_ne_null)
        (fun y935 hy935 => Json.array_id (fun y936 hy936 => Hash.json_rt ((h.hashes y935 hy935) y936 hy936)))) ?_
    refine bindOk (Json.opt_id hn (.tail _ (.tail _ (.tail _ (.tail _ (.head _))))) (fun y937 hy937 => Json.ofList_ne_null)
        (fun y937 hy937 => Json.array_id (fun y938 hy938 => ExternalReference.json_rt (((h.externalReferences nofun) y937 hy937) y938 hy938)))) ?_
    rfl

theorem Tool.xml_body_wf {loose : Bool} {v : SpecVersion} {x : Tool} : WellFormed loose (
    (writeOpt (writeSimple "vendor") x.vendor) ++
    ((writeOpt (writeSimple "name") x.name) ++
    ((writeOpt (writeSimple "version") x.version) ++
    ((writeOpt (writeList "hashes" Hash.writeXml) x.hashes) ++
    ((since14 v (writeOpt (writeList "externalReferences" ExternalReference.writeXml) x.externalReferences) [])))))) :=
  (.append (writeOpt_wf fun _ _ => writeSimple_wf)
    (.append (writeOpt_wf fun _ _ => writeSimple_wf)
    (.append (writeOpt_wf fun _ _ => writeSimple_wf)
    (.append (writeOpt_wf fun _ _ => (writeList_wf fun _ _ => Hash.xml_wf))
    (since14_wf (writeOpt_wf fun _ _ => (writeList_wf fun _ _ => ExternalReference.xml_wf)))))))

theorem Tool.xml_one {loose : Bool} {v : SpecVersion} {x : Tool} :
    OneElement loose "tool" (Tool.writeXml v x) :=
  writeElem_one goodNil (Tool.xml_body_wf)

theorem Tool.xml_wf {loose : Bool} {v : SpecVersion} {x : Tool} :
    WellFormed loose (Tool.writeXml v x) :=
  (Tool.xml_one).wf

theorem Tool.arms_local (v : SpecVersion) :
    ∀ p ∈ Tool.arms v, LocalArm p.1 p.2 :=
  (armsAppend (armsCons (arm_local readSimple_local _)
    (armsCons (arm_local readSimple_local _)
    (armsCons (arm_local readSimple_local _)
    (armsCons (arm_local (readList_local Hash.xml_local) _)
    armsNil))))
    (armsSince14 (armsCons (arm_local (readList_local ExternalReference.xml_local) _)
    armsNil)))

theorem Tool.xml_local (v : SpecVersion) {tag : String} :
    LocalAt tag (Tool.readXml v) :=
  readStruct_local (by simp) (Tool.arms_local v)

theorem Tool.xml_reads (v : SpecVersion) {ns : Option String} {x : Tool} (h : Tool.XmlOk v x) :
    Reads ns (Tool.writeXml v x) "tool" (Tool.readXml v) (x.at v) := by
  cases v with
  | v1_3 =>
    have hn : ["vendor", "name", "version", "hashes"].Nodup := by decide
    refine reads_struct (Tool.xml_body_wf) rfl
        (Goes.append (Goes.opt (fun o s => { s with vendor := o }) (.head _) hn (fun _ => rfl) rfl
            (fun y946 hy946 => reads_simple (h.vendor y946 hy946)))
          (Goes.append (Goes.opt (fun o s => { s with name := o }) (.tail _ (.head _)) hn (fun _ => rfl) rfl
            (fun y947 hy947 => reads_simple (h.name y947 hy947)))
          (Goes.append (Goes.opt (fun o s => { s with version := o }) (.tail _ (.tail _ (.head _))) hn (fun _ => rfl) rfl
            (fun y948 hy948 => reads_simple (h.version y948 hy948)))
          (Goes.append (Goes.opt (fun o s => { s with hashes := o }) (.tail _ (.tail _ (.tail _ (.head _)))) hn (fun _ => rfl) rfl
            (fun y949 hy949 => reads_list (fun y950 hy950 => Hash.xml_reads ((h.hashes y949 hy949) y950 hy950)) (fun _ _ => Hash.xml_wf)))
          (Goes.nil)
          (writeOpt_wf fun _ _ => (writeList_wf fun _ _ => Hash.xml_wf)))
          (writeOpt_wf fun _ _ => writeSimple_wf))
          (writeOpt_wf fun _ _ => writeSimple_wf))
          (writeOpt_wf fun _ _ => writeSimple_wf)) ?_
    rfl
  | v1_4 =>
    have hn : ["vendor", "name", "version", "hashes", "externalReferences"].Nodup := by decide
    refine reads_struct (Tool.xml_body_wf) rfl
        (Goes.append (Goes.opt (fun o s => { s with vendor := o }) (.head _) hn (fun _ => rfl) rfl
            (fun y951 hy951 => reads_simple (h.vendor y951 hy951)))
          (Goes.append (Goes.opt (fun o s => { s with name := o }) (.tail _ (.head _)) hn (fun _ => rfl) rfl
            (fun y952 hy952 => reads_simple (h.name y952 hy952)))
          (Goes.append (Goes.opt (fun o s => { s with version := o }) (.tail _ (.tail _ (.head _))) hn (fun _ => rfl) rfl
            (fun y953 hy953 => reads_simple (h.version y953 hy953)))
          (Goes.append (Goes.opt (fun o s => { s with hashes := o }) (.tail _ (.tail _ (.tail _ (.head _)))) hn (fun _ => rfl) rfl
            (fun y954 hy954 => reads_list (fun y955 hy955 => Hash.xml_reads ((h.hashes y954 hy954) y955 hy955)) (fun _ _ => Hash.xml_wf)))
          (Goes.opt (fun o s => { s with externalReferences := o }) (.tail _ (.tail _ (.tail _ (.tail _ (.head _))))) hn (fun _ => rfl) rfl
            (fun y956 hy956 => reads_list (fun y957 hy957 => ExternalReference.xml_reads (((h.externalReferences nofun) y956 hy956) y957 hy957)) (fun _ _ => ExternalReference.xml_wf)))
          (writeOpt_wf fun _ _ => (writeList_wf fun _ _ => Hash.xml_wf)))
          (writeOpt_wf fun _ _ => writeSimple_wf))
          (writeOpt_wf fun _ _ => writeSimple_wf))
          (writeOpt_wf fun _ _ => writeSimple_wf)) ?_
    rfl
  | v1_5 =>
    have hn : ["vendor", "name", "version", "hashes", "externalReferences"].Nodup := by decide
    refine reads_struct (Tool.xml_body_wf) rfl
        (Goes.append (Goes.opt (fun o s => { s with vendor := o }) (.head _) hn (fun _ => rfl) rfl
            (fun y958 hy958 => reads_simple (h.vendor y958 hy958)))
          (Goes.append (Goes.opt (fun o s => { s with name := o }) (.tail _ (.head _)) hn (fun _ => rfl) rfl
            (fun y959 hy959 => reads_simple (h.name y959 hy959)))
          (Goes.append (Goes.opt (fun o s => { s with version := o }) (.tail _ (.tail _ (.head _))) hn (fun _ => rfl) rfl
            (fun y960 hy960 => reads_simple (h.version y960 hy960)))
          (Goes.append (Goes.opt (fun o s => { s with hashes := o }) (.tail _ (.tail _ (.tail _ (.head _)))) hn (fun _ => rfl) rfl
            (fun y961 hy961 => reads_list (fun y962 hy962 => Hash.xml_reads ((h.hashes y961 hy961) y962 hy962)) (fun _ _ => Hash.xml_wf)))
          (Goes.opt (fun o s => { s with externalReferences := o }) (.tail _ (.tail _ (.tail _ (.tail _ (.head _))))) hn (fun _ => rfl) rfl
            (fun y963 hy963 => reads_list (fun y964 hy964 => ExternalReference.xml_reads (((h.externalReferences nofun) y963 hy963) y964 hy964)) (fun _ _ => ExternalReference.xml_wf)))
          (writeOpt_wf fun _ _ => (writeList_wf fun _ _ => Hash.xml_wf)))
          (writeOpt_wf fun _ _ => writeSimple_wf))
          (writeOpt_wf fun _ _ => writeSimple_wf))
          (writeOpt_wf fun _ _ => writeSimple_wf)) ?_
    rfl

theorem Tools.json_ne_null {v : SpecVersion} {x : Tools} : Tools.toJson v x ≠ .null := by
  cases x with
  | list l => exact Json.ofList_ne_null
  | object s c => cases v <;> exact nofun

theorem Tools.json_rt (v : SpecVersion) {x : Tools} (h : Tools.JsonOk v x) :
    Tools.ofJson v (Tools.toJson v x) = .ok (x.at v) := by
  cases x with
  | list l =>
    rw [Tools.toJson, Tools.ofJson, Json.array_ofList (fun y hy => Tool.json_rt v (h y hy))]
    rfl
  | object s c =>
    cases v with
    | v1_3 => rfl
    | v1_4 => rfl
    | v1_5 =>
      obtain ⟨h1, h2⟩ := h rfl
      have hn : ["services", "components"].Nodup := by decide
      show Tools.objectOfJson .v1_5 _ = _
      refine bindOk (Json.fields_mk _) ?_
      refine bindOk (Json.opt_mk hn (.head _) (fun y hy => Json.ofList_ne_null)
        (fun y hy => Json.array_ofList (fun z hz => Service.json_rt .v1_5 (h1 y hy z hz)))) ?_
      refine bindOk (Json.opt_mk hn (.tail _ (.head _)) (fun y hy => Json.ofList_ne_null)
        (fun y hy => Json.array_ofList (fun z hz => Component.json_rt .v1_5 (h2 y hy z hz)))) ?_
      rfl

theorem Tools.xml_one {loose : Bool} {v : SpecVersion} (hl : v = .v1_5 → loose = true) {x : Tools} :
    OneElement loose "tools" (Tools.writeXml v x) := by
  cases x with
  | list l => exact writeElem_one goodNil (flatMap_wf fun _ _ => Tool.xml_wf)
  | object s c =>
    refine writeElem_one goodNil ?_
    cases v with
    | v1_3 => exact .nil
    | v1_4 => exact .nil
    | v1_5 =>
      exact .append (writeOpt_wf fun _ _ => writeList_wf fun _ _ => Service.xml_wf hl)
        (writeOpt_wf fun _ _ => writeList_wf fun _ _ => Component.xml_wf hl)

theorem Tools.xml_wf {loose : Bool} {v : SpecVersion} (hl : v = .v1_5 → loose = true) {x : Tools} :
    WellFormed loose (Tools.writeXml v x) := (Tools.xml_one hl).wf

theorem Tools.xml_local (v : SpecVersion) {tag : String} : LocalAt tag (Tools.readXml v) :=
  readStruct_local (by simp) (armsAppend (armsCons (arm_local (Tool.xml_local v) _) armsNil)
    (armsSince15 (armsCons (arm_local (readListLax_local (Component.xml_local v)) _)
      (armsCons (arm_local (readListLax_local (Service.xml_local v)) _) armsNil))))

theorem Tools.foldl_tools (l : List Tool) : ∀ (s : Tools.Vars) (acc : List Tool), s.tools = some acc →
    l.foldl (fun (s : Tools.Vars) y => { s with tools := some (s.tools.getD [] ++ [y]) }) s =
      { s with tools := some (acc ++ l) } := by
  induction l with
  | nil => intro s acc h; simp [← h]
  | cons x l ih =>
    intro s acc h
    rw [List.foldl_cons, ih _ (acc ++ [x]) (by simp [h])]
    simp

theorem Tools.foldl_tools_nil (l : List Tool) :
    l.foldl (fun (s : Tools.Vars) y => { s with tools := some (s.tools.getD [] ++ [y]) }) {} =
      { tools := if l = [] then none else some l } := by
  cases l with
  | nil => rfl
  | cons x l => rw [List.foldl_cons, Tools.foldl_tools l _ [x] rfl]; rfl

theorem Tools.xml_reads (v : SpecVersion) {ns : Option String} {x : Tools} (h : Tools.XmlOk v x) :
    Reads ns (Tools.writeXml v x) "tools" (Tools.readXml v) (x.at v) := by
  cases x with
  | list l =>
    have hn : ((Tools.arms v).map (·.1)).Nodup := by
      cases v with
      | v1_3 => exact (by decide : ["tool"].Nodup)
      | v1_4 => exact (by decide : ["tool"].Nodup)
      | v1_5 => exact (by decide : ["tool", "components", "services"].Nodup)
    refine reads_struct (flatMap_wf fun _ _ => Tool.xml_wf) rfl
      (Goes.flatMap (.head _) hn (fun y hy => Tool.xml_reads v (h.2 y hy)) (fun _ _ => Tool.xml_wf)) ?_
    rw [Tools.foldl_tools_nil]
    cases l with
    | nil =>
      cases v with
      | v1_3 => rfl
      | v1_4 => rfl
      | v1_5 => exact absurd rfl (h.1 rfl)
    | cons y l => rfl
  | object s c =>
    cases v with
    | v1_3 => exact reads_struct .nil rfl Goes.nil rfl
    | v1_4 => exact reads_struct .nil rfl Goes.nil rfl
    | v1_5 =>
      obtain ⟨h1, h2⟩ := h rfl
      have hn : ["tool", "components", "services"].Nodup := by decide
      refine reads_struct
        (.append (writeOpt_wf fun _ _ => writeList_wf fun _ _ => Service.xml_wf fun _ => rfl)
          (writeOpt_wf fun _ _ => writeList_wf fun _ _ => Component.xml_wf fun _ => rfl)) rfl
        (Goes.append (Goes.opt_at (fun o s => { s with services := o }) (.tail _ (.tail _ (.head _))) hn (fun _ => rfl) rfl
            (fun y hy => reads_listLax_at (fun z hz => Service.xml_reads .v1_5 (h1 y hy z hz)) (fun _ _ => Service.xml_wf fun _ => rfl)))
          (Goes.opt_at (fun o s => { s with components := o }) (.tail _ (.head _)) hn (fun _ => rfl) rfl
            (fun y hy => reads_listLax_at (fun z hz => Component.xml_reads .v1_5 (h2 y hy z hz)) (fun _ _ => Component.xml_wf fun _ => rfl)))
          (writeOpt_wf fun _ _ => writeList_wf fun _ _ => Service.xml_wf fun _ => rfl)) rfl

theorem Metadata.json_ne_null {v : SpecVersion} {x : Metadata} :
    Metadata.toJson v x ≠ .null := Json.mk_ne_null _

theorem Metadata.json_rt (v : SpecVersion) {x : Metadata} (h : Metadata.JsonOk v x) :
    Metadata.ofJson v (Metadata.toJson v x) = .ok (x.at v) := by
  cases v with
  | v1_3 =>
    have hn : ["timestamp", "tools", "authors", "component", "manufacture", "supplier", "licenses", "properties"].Nodup := by decide
    refine bindOk (Json.fields_mk _) ?_
    refine bindOk (Json.opt_id hn (.head _) (fun y970 hy970 => Json.str_ne_null)
        (fun y970 hy970 => rfl)) ?_
    refine bindOk (Json.opt_mk hn (.tail _ (.head _)) (fun y971 hy971 => Tools.json_ne_null)
        (fun y971 hy971 => Tools.json_rt .v1_3 (h.tools y971 hy971))) ?_
    refine bindOk (Json.opt_id hn (.tail _ (.tail _ (.head _))) (fun y972 hy972 => Json.ofList_ne_null)
        (fun y972 hy972 => Json.array_id (fun y973 hy973 => OrganizationalContact.json_rt))) ?_
    refine bindOk (Json.opt_mk hn (.tail _ (.tail _ (.tail _ (.head _)))) (fun y974 hy974 => Component.json_ne_null)
        (fun y974 hy974 => Component.json_rt .v1_3 (h.component y974 hy974))) ?_
    refine bindOk (Json.opt_id hn (.tail _ (.tail _ (.tail _ (.tail _ (.head _))))) (fun y975 hy975 => OrganizationalEntity.json_ne_null)
        (fun y975 hy975 => OrganizationalEntity.json_rt)) ?_
    refine bindOk (Json.opt_id hn (.tail _ (.tail _ (.tail _ (.tail _ (.tail _ (.head _)))))) (fun y976 hy976 => OrganizationalEntity.json_ne_null)
        (fun y976 hy976 => OrganizationalEntity.json_rt)) ?_
    refine bindOk (Json.opt_mk hn (.tail _ (.tail _ (.tail _ (.tail _ (.tail _ (.tail _ (.head _))))))) (fun y977 hy977 => Licenses.json_ne_null)
        (fun y977 hy977 => Licenses.json_rt .v1_3 (h.licenses y977 hy977))) ?_
    refine bindOk (Json.opt_id hn (.tail _ (.tail _ (.tail _ (.tail _ (.tail _ (.tail _ (.tail _ (.head _)))))))) (fun y978 hy978 => Json.ofList_ne_null)
        (fun y978 hy978 => Json.array_id (fun y979 hy979 => Property.json_rt))) ?_
    refine bindOk rfl ?_
    rfl
  | v1_4 =>
    have hn : ["timestamp", "tools", "authors", "component", "manufacture", "supplier", "licenses", "properties"].Nodup := by decide
    refine bindOk (Json.fields_mk _) ?_
    refine bindOk (Json.opt_id hn (.head _) (fun y980 hy980 => Json.str_ne_null)
        (fun y980 hy980 => rfl)) ?_
    refine bindOk (Json.opt_mk hn (.tail _ (.head _)) (fun y981 hy981 => Tools.json_ne_null)
        (fun y981 hy981 => Tools.json_rt .v1_4 (h.tools y981 hy981))) ?_
    refine bindOk (Json.opt_id hn (.tail _ (.tail _ (.head _))) (fun y982 hy982 => Json.ofList_ne_null)
        (fun y982 hy982 => Json.array_id (fun y983 hy983 => OrganizationalContact.json_rt))) ?_
    refine bindOk (Json.opt_mk hn (.tail _ (.tail _ (.tail _ (.head _)))) (fun y984 hy984 => Component.json_ne_null)
        (fun y984 hy984 => Component.json_rt .v1_4 (h.component y984 hy984))) ?_
    refine bindOk (Json.opt_id hn (.tail _ (.tail _ (.tail _ (.tail _ (.head _))))) (fun y985 hy985 => OrganizationalEntity.json_ne_null)
        (fun y985 hy985 => OrganizationalEntity.json_rt)) ?_
    refine bindOk (Json.opt_id hn (.tail _ (.tail _ (.tail _ (.tail _ (.tail _ (.head _)))))) (fun y986 hy986 => OrganizationalEntity.json_ne_null)
        (fun y986 hy986 => OrganizationalEntity.json_rt)) ?_
    refine bindOk (Json.opt_mk hn (.tail _ (.tail _ (.tail _ (.tail _ (.tail _ (.tail _ (.head _))))))) (fun y987 hy987 => Licenses.json_ne_null)
        (fun y987 hy987 => Licenses.json_rt .v1_4 (h.licenses y987 hy987))) ?_
    refine bindOk (Json.opt_id hn (.tail _ (.tail _ (.tail _ (.tail _ (.tail _ (.tail _ (.tail _ (.head _)))))))) (fun y988 hy988 => Json.ofList_ne_null)
        (fun y988 hy988 => Json.array_id (fun y989 hy989 => Property.json_rt))) ?_
    refine bindOk rfl ?_
    rfl
  | v1_5 =>
    have hn : ["timestamp", "tools", "authors", "component", "manufacture", "supplier", "licenses", "properties", "lifecycles"].Nodup := by decide
    refine bindOk (Json.fields_mk _) ?_
    refine bindOk (Json.opt_id hn (.head _) (fun y990 hy990 => Json.str_ne_null)
        (fun y990 hy990 => rfl)) ?_
    refine bindOk (Json.opt_mk hn (.tail _ (.head _)) (fun y991 hy991 => Tools.json_ne_null)
        (fun y991 hy991 => Tools.json_rt .v1_5 (h.tools y991 hy991))) ?_
    refine bindOk (Json.opt_id hn (.tail _ (.tail _ (.head _))) (fun y992 hy992 => Json.ofList_ne_null)
        (fun y992 hy992 => Json.array_id (fun y993 hy993 => OrganizationalContact.json_rt))) ?_
    refine bindOk (Json.opt_mk hn (.tail _ (.tail _ (.tail _ (.head _)))) (fun y994 hy994 => Component.json_ne_null)
        (fun y994 hy994 => Component.json_rt .v1_5 (h.component y994 hy994))) ?_
    refine bindOk (Json.opt_id hn (.tail _ (.tail _ (.tail _ (.tail _ (.head _))))) (fun y995 hy995 => OrganizationalEntity.json_ne_null)
        (fun y995 hy995 => OrganizationalEntity.json_rt)) ?_
    refine bindOk (Json.opt_id hn (.tail _ (.tail _ (.tail _ (.tail _ (.tail _ (.head _)))))) (fun y996 hy996 => OrganizationalEntity.json_ne_null)
        (fun y996 hy996 => OrganizationalEntity.json_rt)) ?_
    refine bindOk (Json.opt_mk hn (.tail _ (.tail _ (.tail _ (.tail _ (.tail _ (.tail _ (.head _))))))) (fun y997 hy997 => Licenses.json_ne_null)
        (fun y997 hy997 => Licenses.json_rt .v1_5 (h.licenses y997 hy997))) ?_
    refine bindOk (Json.opt_id hn (.tail _ (.tail _ (.tail _ (.tail _ (.tail _ (.tail _ (.tail _ (.head _)))))))) (fun y998 hy998 => Json.ofList_ne_null)
        (fun y998 hy998 => Json.array_id (fun y999 hy999 => Property.json_rt))) ?_
    refine bindOk (Json.opt_id hn (.tail _ (.tail _ (.tail _ (.tail _ (.tail _ (.tail _ (.tail _ (.tail _ (.head _))))))))) (fun y1000 hy1000 => Json.ofList_ne_null)
        (fun y1000 hy1000 => Json.array_id (fun y1001 hy1001 => Lifecycle.json_rt (((h.lifecycles rfl) y1000 hy1000) y1001 hy1001)))) ?_
    rfl

theorem Metadata.xml_body_wf {loose : Bool} {v : SpecVersion} (hl : v = .v1_5 → loose = true) {x : Metadata} : WellFormed loose (
    (writeOpt (writeSimple "timestamp") x.timestamp) ++
    ((writeOpt (Tools.writeXml v) x.tools) ++
    ((writeOpt (writeList "authors" (fun c => if OrganizationalContact.willWrite c then OrganizationalContact.writeXml "author" c else [])) x.authors) ++
    ((writeOpt (Component.writeXml v) x.component) ++
    ((writeOpt (OrganizationalEntity.writeXml "manufacture") x.manufacture) ++
    ((writeOpt (OrganizationalEntity.writeXml "supplier") x.supplier) ++
    ((writeOpt (Licenses.writeXml v) x.licenses) ++
    ((writeOpt (writeList "properties" Property.writeXml) x.properties) ++
    ((since15 v (writeOpt (writeList "lifecycles" Lifecycle.writeXml) x.lifecycles) [])))))))))) :=
  (.append (writeOpt_wf fun _ _ => writeSimple_wf)
    (.append (writeOpt_wf fun _ _ => (Tools.xml_wf hl))
    (.append (writeOpt_wf fun _ _ => (writeList_wf fun _ _ => (if_wf OrganizationalContact.xml_wf)))
    (.append (writeOpt_wf fun _ _ => (Component.xml_wf hl))
    (.append (writeOpt_wf fun _ _ => OrganizationalEntity.xml_wf)
    (.append (writeOpt_wf fun _ _ => OrganizationalEntity.xml_wf)
    (.append (writeOpt_wf fun _ _ => Licenses.xml_wf)
    (.append (writeOpt_wf fun _ _ => (writeList_wf fun _ _ => Property.xml_wf))
    (since15_wf fun _ => (writeOpt_wf fun _ _ => (writeList_wf fun _ _ => Lifecycle.xml_wf)))))))))))

theorem Metadata.xml_one {loose : Bool} {v : SpecVersion} (hl : v = .v1_5 → loose = true) {x : Metadata} :
    OneElement loose "metadata" (Metadata.writeXml v x) :=
  writeElem_one goodNil (Metadata.xml_body_wf hl)

theorem Metadata.xml_wf {loose : Bool} {v : SpecVersion} (hl : v = .v1_5 → loose = true) {x : Metadata} :
    WellFormed loose (Metadata.writeXml v x) :=
  (Metadata.xml_one hl).wf

theorem Metadata.arms_local (v : SpecVersion) :
    ∀ p ∈ Metadata.arms v, LocalArm p.1 p.2 :=
  (armsAppend (armsCons (arm_local readSimple_local _)
    (armsCons (arm_local (Tools.xml_local v) _)
    (armsCons (arm_local (readList_local OrganizationalContact.xml_local) _)
    (armsCons (arm_local (Component.xml_local v) _)
    (armsCons (arm_local OrganizationalEntity.xml_local _)
    (armsCons (arm_local OrganizationalEntity.xml_local _)
    (armsCons (arm_local (Licenses.xml_local v) _)
    (armsCons (arm_local (readListLax_local Property.xml_local) _)
    armsNil))))))))
    (armsSince15 (armsCons (arm_local (readList_local Lifecycle.xml_local) _)
    armsNil)))

theorem Metadata.xml_local (v : SpecVersion) {tag : String} :
    LocalAt tag (Metadata.readXml v) :=
  readStruct_local (by simp) (Metadata.arms_local v)

theorem Metadata.xml_reads (v : SpecVersion) {ns : Option String} {x : Metadata} (h : Metadata.XmlOk v x) :
    Reads ns (Metadata.writeXml v x) "metadata" (Metadata.readXml v) (x.at v) := by
  cases v with
  | v1_3 =>
    have hn : ["timestamp", "tools", "authors", "component", "manufacture", "supplier", "licenses", "properties"].Nodup := by decide
    refine reads_struct (Metadata.xml_body_wf (fun _ => rfl)) rfl
        (Goes.append (Goes.opt (fun o s => { s with timestamp := o }) (.head _) hn (fun _ => rfl) rfl
            (fun y1014 hy1014 => reads_simple (h.timestamp y1014 hy1014)))
          (Goes.append (Goes.opt_at (fun o s => { s with tools := o }) (.tail _ (.head _)) hn (fun _ => rfl) rfl
            (fun y1015 hy1015 => Tools.xml_reads .v1_3 (h.tools y1015 hy1015)))
          (Goes.append (Goes.opt (fun o s => { s with authors := o }) (.tail _ (.tail _ (.head _))) hn (fun _ => rfl) rfl
            (fun y1016 hy1016 => reads_list (fun y1017 hy1017 => reads_if ((h.authors y1016 hy1016) y1017 hy1017).2 (OrganizationalContact.xml_reads ((h.authors y1016 hy1016) y1017 hy1017).1)) (fun _ _ => (if_wf OrganizationalContact.xml_wf))))
          (Goes.append (Goes.opt_at (fun o s => { s with component := o }) (.tail _ (.tail _ (.tail _ (.head _)))) hn (fun _ => rfl) rfl
            (fun y1018 hy1018 => Component.xml_reads .v1_3 (h.component y1018 hy1018)))
          (Goes.append (Goes.opt (fun o s => { s with manufacture := o }) (.tail _ (.tail _ (.tail _ (.tail _ (.head _))))) hn (fun _ => rfl) rfl
            (fun y1019 hy1019 => OrganizationalEntity.xml_reads (h.manufacture y1019 hy1019)))
          (Goes.append (Goes.opt (fun o s => { s with supplier := o }) (.tail _ (.tail _ (.tail _ (.tail _ (.tail _ (.head _)))))) hn (fun _ => rfl) rfl
            (fun y1020 hy1020 => OrganizationalEntity.xml_reads (h.supplier y1020 hy1020)))
          (Goes.append (Goes.opt_at (fun o s => { s with licenses := o }) (.tail _ (.tail _ (.tail _ (.tail _ (.tail _ (.tail _ (.head _))))))) hn (fun _ => rfl) rfl
            (fun y1021 hy1021 => Licenses.xml_reads .v1_3 (h.licenses y1021 hy1021)))
          (Goes.append (Goes.opt (fun o s => { s with properties := o }) (.tail _ (.tail _ (.tail _ (.tail _ (.tail _ (.tail _ (.tail _ (.head _)))))))) hn (fun _ => rfl) rfl
            (fun y1022 hy1022 => reads_listLax (fun y1023 hy1023 => Property.xml_reads ((h.properties y1022 hy1022) y1023 hy1023)) (fun _ _ => Property.xml_wf)))
          (Goes.nil)
          (writeOpt_wf fun _ _ => (writeList_wf fun _ _ => Property.xml_wf)))
          (writeOpt_wf fun _ _ => Licenses.xml_wf))
          (writeOpt_wf fun _ _ => OrganizationalEntity.xml_wf))
          (writeOpt_wf fun _ _ => OrganizationalEntity.xml_wf))
          (writeOpt_wf fun _ _ => (Component.xml_wf fun _ => rfl)))
          (writeOpt_wf fun _ _ => (writeList_wf fun _ _ => (if_wf OrganizationalContact.xml_wf))))
          (writeOpt_wf fun _ _ => (Tools.xml_wf fun _ => rfl)))
          (writeOpt_wf fun _ _ => writeSimple_wf)) ?_
    rfl
  | v1_4 =>
    have hn : ["timestamp", "tools", "authors", "component", "manufacture", "supplier", "licenses", "properties"].Nodup := by decide
    refine reads_struct (Metadata.xml_body_wf (fun _ => rfl)) rfl
        (Goes.append (Goes.opt (fun o s => { s with timestamp := o }) (.head _) hn (fun _ => rfl) rfl
            (fun y1024 hy1024 => reads_simple (h.timestamp y1024 hy1024)))
          (Goes.append (Goes.opt_at (fun o s => { s with tools := o }) (.tail _ (.head _)) hn (fun _ => rfl) rfl
            (fun y1025 hy1025 => Tools.xml_reads .v1_4 (h.tools y1025 hy1025)))
          (Goes.append (Goes.opt (fun o s => { s with authors := o }) (.tail _ (.tail _ (.head _))) hn (fun _ => rfl) rfl
            (fun y1026 hy1026 => reads_list (fun y1027 hy1027 => reads_if ((h.authors y1026 hy1026) y1027 hy1027).2 (OrganizationalContact.xml_reads ((h.authors y1026 hy1026) y1027 hy1027).1)) (fun _ _ => (if_wf OrganizationalContact.xml_wf))))
          (Goes.append (Goes.opt_at (fun o s => { s with component := o }) (.tail _ (.tail _ (.tail _ (.head _)))) hn (fun _ => rfl) rfl
            (fun y1028 hy1028 => Component.xml_reads .v1_4 (h.component y1028 hy1028)))
          (Goes.append (Goes.opt (fun o s => { s with manufacture := o }) (.tail _ (.tail _ (.tail _ (.tail _ (.head _))))) hn (fun _ => rfl) rfl
            (fun y1029 hy1029 => OrganizationalEntity.xml_reads (h.manufacture y1029 hy1029)))
          (Goes.append (Goes.opt (fun o s => { s with supplier := o }) (.tail _ (.tail _ (.tail _ (.tail _ (.tail _ (.head _)))))) hn (fun _ => rfl) rfl
            (fun y1030 hy1030 => OrganizationalEntity.xml_reads (h.supplier y1030 hy1030)))
          (Goes.append (Goes.opt_at (fun o s => { s with licenses := o }) (.tail _ (.tail _ (.tail _ (.tail _ (.tail _ (.tail _ (.head _))))))) hn (fun _ => rfl) rfl
            (fun y1031 hy1031 => Licenses.xml_reads .v1_4 (h.licenses y1031 hy1031)))
          (Goes.append (Goes.opt (fun o s => { s with properties := o }) (.tail _ (.tail _ (.tail _ (.tail _ (.tail _ (.tail _ (.tail _ (.head _)))))))) hn (fun _ => rfl) rfl
            (fun y1032 hy1032 => reads_listLax (fun y1033 hy1033 => Property.xml_reads ((h.properties y1032 hy1032) y1033 hy1033)) (fun _ _ => Property.xml_wf)))
          (Goes.nil)
          (writeOpt_wf fun _ _ => (writeList_wf fun _ _ => Property.xml_wf)))
          (writeOpt_wf fun _ _ => Licenses.xml_wf))
          (writeOpt_wf fun _ _ => OrganizationalEntity.xml_wf))
          (writeOpt_wf fun _ _ => OrganizationalEntity.xml_wf))
          (writeOpt_wf fun _ _ => (Component.xml_wf fun _ => rfl)))
          (writeOpt_wf fun _ _ => (writeList_wf fun _ _ => (if_wf OrganizationalContact.xml_wf))))
          (writeOpt_wf fun _ _ => (Tools.xml_wf fun _ => rfl)))
          (writeOpt_wf fun _ _ => writeSimple_wf)) ?_
    rfl
  | v1_5 =>
    have hn : ["timestamp", "tools", "authors", "component", "manufacture", "supplier", "licenses", "properties", "lifecycles"].Nodup := by decide
    refine reads_struct (Metadata.xml_body_wf (fun _ => rfl)) rfl
        (Goes.append (Goes.opt (fun o s => { s with timestamp := o }) (.head _) hn (fun _ => rfl) rfl
            (fun y1034 hy1034 => reads_simple (h.timestamp y1034 hy1034)))
          (Goes.append (Goes.opt_at (fun o s => { s with tools := o }) (.tail _ (.head _)) hn (fun _ => rfl) rfl
            (fun y1035 hy1035 => Tools.xml_reads .v1_5 (h.tools y1035 hy1035)))
          (Goes.append (Goes.opt (fun o s => { s with authors := o }) (.tail _ (.tail _ (.head _))) hn (fun _ => rfl) rfl
            (fun y1036 hy1036 => reads_list (fun y1037 hy1037 => reads_if ((h.authors y1036 hy1036) y1037 hy1037).2 (OrganizationalContact.xml_reads ((h.authors y1036 hy1036) y1037 hy1037).1)) (fun _ _ => (if_wf OrganizationalContact.xml_wf))))
          (Goes.append (Goes.opt_at (fun o s => { s with component := o }) (.tail _ (.tail _ (.tail _ (.head _)))) hn (fun _ => rfl) rfl
            (fun y1038 hy1038 => Component.xml_reads .v1_5 (h.component y1038 hy1038)))
          (Goes.append (Goes.opt (fun o s => { s with manufacture := o }) (.tail _ (.tail _ (.tail _ (.tail _ (.head _))))) hn (fun _ => rfl) rfl
            (fun y1039 hy1039 => OrganizationalEntity.xml_reads (h.manufacture y1039 hy1039)))
          (Goes.append (Goes.opt (fun o s => { s with supplier := o }) (.tail _ (.tail _ (.tail _ (.tail _ (.tail _ (.head _)))))) hn (fun _ => rfl) rfl
            (fun y1040 hy1040 => OrganizationalEntity.xml_reads (h.supplier y1040 hy1040)))
          (Goes.append (Goes.opt_at (fun o s => { s with licenses := o }) (.tail _ (.tail _ (.tail _ (.tail _ (.tail _ (.tail _ (.head _))))))) hn (fun _ => rfl) rfl
            (fun y1041 hy1041 => Licenses.xml_reads .v1_5 (h.licenses y1041 hy1041)))
          (Goes.append (Goes.opt (fun o s => { s with properties := o }) (.tail _ (.tail _ (.tail _ (.tail _ (.tail _ (.tail _ (.tail _ (.head _)))))))) hn (fun _ => rfl) rfl
            (fun y1042 hy1042 => reads_listLax (fun y1043 hy1043 => Property.xml_reads ((h.properties y1042 hy1042) y1043 hy1043)) (fun _ _ => Property.xml_wf)))
          (Goes.opt (fun o s => { s with lifecycles := o }) (.tail _ (.tail _ (.tail _ (.tail _ (.tail _ (.tail _ (.tail _ (.tail _ (.head _))))))))) hn (fun _ => rfl) rfl
            (fun y1044 hy1044 => reads_list (fun y1045 hy1045 => Lifecycle.xml_reads (((h.lifecycles rfl) y1044 hy1044) y1045 hy1045)) (fun _ _ => Lifecycle.xml_wf)))
          (writeOpt_wf fun _ _ => (writeList_wf fun _ _ => Property.xml_wf)))
          (writeOpt_wf fun _ _ => Licenses.xml_wf))
          (writeOpt_wf fun _ _ => OrganizationalEntity.xml_wf))
          (writeOpt_wf fun _ _ => OrganizationalEntity.xml_wf))
          (writeOpt_wf fun _ _ => (Component.xml_wf fun _ => rfl)))
          (writeOpt_wf fun _ _ => (writeList_wf fun _ _ => (if_wf OrganizationalContact.xml_wf))))
          (writeOpt_wf fun _ _ => (Tools.xml_wf fun _ => rfl)))
          (writeOpt_wf fun _ _ => writeSimple_wf)) ?_
    rfl

end Cdx
