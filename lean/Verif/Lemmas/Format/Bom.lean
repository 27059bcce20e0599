import Verif.Lemmas.Xml
import Verif.Lemmas.Json
import Verif.Spec.Format.Bom
import Verif.Lemmas.Format.Formulation

set_option linter.unusedSectionVars false
set_option linter.unusedSimpArgs false
set_option linter.unusedVariables false

/-!
# Lemmas on the file formats: documents
-/

namespace Cdx

variable [F32Format]

variable [ReadLimit]

theorem SpecVersion.ofString_display {v : SpecVersion} : SpecVersion.ofString v.display = some v := by
  cases v <;> rfl

theorem SpecVersion.json_rt {v : SpecVersion} : SpecVersion.ofJson (.str v.display) = .ok v := by
  cases v <;> rfl

theorem Bom.attrs_read {x : Bom} (h : x.version < 2 ^ 32) :
    (do let a0 ← Bom.versionOfAttrs (mkAttrs [("serialNumber", x.serialNumber),
          ("version", some (showNat x.version))])
        .ok (a0, optAttr (mkAttrs [("serialNumber", x.serialNumber),
          ("version", some (showNat x.version))]) "serialNumber") : Except XErr (Nat × Option String)) =
      .ok (x.version, x.serialNumber) := by
  have ha : ["serialNumber", "version"].Nodup := by decide
  have h1 : optAttr (mkAttrs [("serialNumber", x.serialNumber),
      ("version", some (showNat x.version))]) "version" = some (showNat x.version) :=
    optAttr_mk ha (.tail _ (.head _))
  have h2 : optAttr (mkAttrs [("serialNumber", x.serialNumber),
      ("version", some (showNat x.version))]) "serialNumber" = x.serialNumber :=
    optAttr_mk ha (.head _)
  rw [Bom.versionOfAttrs, h1, h2]
  simp only [parseU32Attr, parseU32_show h]
  rfl

/-- The root as a structure reader whose loop compares the whole name of the end tag, to which
the root reader is related below (`specs/common/bom.rs` 279-467). -/
def Bom.readXml (v : SpecVersion) : XElem Bom :=
  readStruct .skip (fun _ attrs => do
      let a0 ← Bom.versionOfAttrs attrs
      .ok (a0, optAttr attrs "serialNumber"))
    ({} : Bom.Vars) (Bom.arms v) (fun _ (a0, a1) vars =>
      .ok { version := a0,
            serialNumber := a1,
            specVersion := v,
            metadata := vars.metadata,
            components := vars.components,
            services := vars.services,
            externalReferences := vars.externalReferences,
            dependencies := vars.dependencies,
            compositions := vars.compositions,
            properties := vars.properties,
            vulnerabilities := vars.vulnerabilities,
            signature := vars.signature,
            annotations := vars.annotations,
            formulation := vars.formulation })

theorem Bom.json_ne_null {v : SpecVersion} {x : Bom} :
    Bom.toJson v x ≠ .null := Json.mk_ne_null _

theorem Bom.json_rt (v : SpecVersion) {x : Bom} (h : Bom.JsonOk v x) :
    Bom.ofJson v (Bom.toJson v x) = .ok (x.at v) := by
  cases v with
  | v1_3 =>
    have hn : ["bomFormat", "specVersion", "version", "serialNumber", "metadata", "components", "services", "externalReferences", "dependencies", "compositions"].Nodup := by decide
    refine bindOk (Json.fields_mk _) ?_
    refine bindOk (Json.req_mk hn (.head _) (rfl)) ?_
    refine bindOk (Json.req_mk hn (.tail _ (.head _)) (SpecVersion.json_rt)) ?_
    refine bindOk (Json.req_mk hn (.tail _ (.tail _ (.head _))) (Json.u32_rt h.version)) ?_
    refine bindOk (Json.opt_id hn (.tail _ (.tail _ (.tail _ (.head _)))) (fun y1667 hy1667 => Json.str_ne_null)
        (fun y1667 hy1667 => rfl)) ?_
    refine bindOk (Json.opt_mk hn (.tail _ (.tail _ (.tail _ (.tail _ (.head _))))) (fun y1668 hy1668 => Metadata.json_ne_null)
        (fun y1668 hy1668 => Metadata.json_rt .v1_3 (h.metadata y1668 hy1668))) ?_
    refine bindOk (Json.opt_mk hn (.tail _ (.tail _ (.tail _ (.tail _ (.tail _ (.head _)))))) (fun y1669 hy1669 => Json.ofList_ne_null)
        (fun y1669 hy1669 => Json.array_ofList (fun y1670 hy1670 => Component.json_rt .v1_3 ((h.components y1669 hy1669) y1670 hy1670)))) ?_
    refine bindOk (Json.opt_mk hn (.tail _ (.tail _ (.tail _ (.tail _ (.tail _ (.tail _ (.head _))))))) (fun y1671 hy1671 => Json.ofList_ne_null)
        (fun y1671 hy1671 => Json.array_ofList (fun y1672 hy1672 => Service.json_rt .v1_3 ((h.services y1671 hy1671) y1672 hy1672)))) ?_
    refine bindOk (Json.opt_id hn (.tail _ (.tail _ (.tail _ (.tail _ (.tail _ (.tail _ (.tail _ (.head _)))))))) (fun y1673 hy1673 => Json.ofList_ne_null)
        (fun y1673 hy1673 => Json.array_id (fun y1674 hy1674 => ExternalReference.json_rt ((h.externalReferences y1673 hy1673) y1674 hy1674)))) ?_
    refine bindOk (Json.opt_id hn (.tail _ (.tail _ (.tail _ (.tail _ (.tail _ (.tail _ (.tail _ (.tail _ (.head _))))))))) (fun y1675 hy1675 => Json.ofList_ne_null)
        (fun y1675 hy1675 => Json.array_id (fun y1676 hy1676 => Dependency.json_rt))) ?_
    refine bindOk (Json.opt_mk hn (.tail _ (.tail _ (.tail _ (.tail _ (.tail _ (.tail _ (.tail _ (.tail _ (.tail _ (.head _)))))))))) (fun y1677 hy1677 => Json.ofList_ne_null)
        (fun y1677 hy1677 => Json.array_ofList (fun y1678 hy1678 => Composition.json_rt .v1_3 ((h.compositions y1677 hy1677) y1678 hy1678)))) ?_
    refine bindOk rfl ?_
    refine bindOk rfl ?_
    refine bindOk rfl ?_
    refine bindOk rfl ?_
    refine bindOk rfl ?_
    rfl
  | v1_4 =>
    have hn : ["bomFormat", "specVersion", "version", "serialNumber", "metadata", "components", "services", "externalReferences", "dependencies", "compositions", "vulnerabilities", "signature"].Nodup := by decide
    refine bindOk (Json.fields_mk _) ?_
    refine bindOk (Json.req_mk hn (.head _) (rfl)) ?_
    refine bindOk (Json.req_mk hn (.tail _ (.head _)) (SpecVersion.json_rt)) ?_
    refine bindOk (Json.req_mk hn (.tail _ (.tail _ (.head _))) (Json.u32_rt h.version)) ?_
    refine bindOk (Json.opt_id hn (.tail _ (.tail _ (.tail _ (.head _)))) (fun y1679 hy1679 => Json.str_ne_null)
        (fun y1679 hy1679 => rfl)) ?_
    refine bindOk (Json.opt_mk hn (.tail _ (.tail _ (.tail _ (.tail _ (.head _))))) (fun y1680 hy1680 => Metadata.json_ne_null)
        (fun y1680 hy1680 => Metadata.json_rt .v1_4 (h.metadata y1680 hy1680))) ?_
    refine bindOk (Json.opt_mk hn (.tail _ (.tail _ (.tail _ (.tail _ (.tail _ (.head _)))))) (fun y1681 hy1681 => Json.ofList_ne_null)
        (fun y1681 hy1681 => Json.array_ofList (fun y1682 hy1682 => Component.json_rt .v1_4 ((h.components y1681 hy1681) y1682 hy1682)))) ?_
    refine bindOk (Json.opt_mk hn (.tail _ (.tail _ (.tail _ (.tail _ (.tail _ (.tail _ (.head _))))))) (fun y1683 hy1683 => Json.ofList_ne_null)
        (fun y1683 hy1683 => Json.array_ofList (fun y1684 hy1684 => Service.json_rt .v1_4 ((h.services y1683 hy1683) y1684 hy1684)))) ?_
    refine bindOk (Json.opt_id hn (.tail _ (.tail _ (.tail _ (.tail _ (.tail _ (.tail _ (.tail _ (.head _)))))))) (fun y1685 hy1685 => Json.ofList_ne_null)
        (fun y1685 hy1685 => Json.array_id (fun y1686 hy1686 => ExternalReference.json_rt ((h.externalReferences y1685 hy1685) y1686 hy1686)))) ?_
    refine bindOk (Json.opt_id hn (.tail _ (.tail _ (.tail _ (.tail _ (.tail _ (.tail _ (.tail _ (.tail _ (.head _))))))))) (fun y1687 hy1687 => Json.ofList_ne_null)
        (fun y1687 hy1687 => Json.array_id (fun y1688 hy1688 => Dependency.json_rt))) ?_
    refine bindOk (Json.opt_mk hn (.tail _ (.tail _ (.tail _ (.tail _ (.tail _ (.tail _ (.tail _ (.tail _ (.tail _ (.head _)))))))))) (fun y1689 hy1689 => Json.ofList_ne_null)
        (fun y1689 hy1689 => Json.array_ofList (fun y1690 hy1690 => Composition.json_rt .v1_4 ((h.compositions y1689 hy1689) y1690 hy1690)))) ?_
    refine bindOk (Json.opt_mk hn (.tail _ (.tail _ (.tail _ (.tail _ (.tail _ (.tail _ (.tail _ (.tail _ (.tail _ (.tail _ (.head _))))))))))) (fun y1691 hy1691 => Json.ofList_ne_null)
        (fun y1691 hy1691 => Json.array_ofList (fun y1692 hy1692 => Vulnerability.json_rt .v1_4 (((h.vulnerabilities nofun) y1691 hy1691) y1692 hy1692)))) ?_
    refine bindOk (Json.opt_id hn (.tail _ (.tail _ (.tail _ (.tail _ (.tail _ (.tail _ (.tail _ (.tail _ (.tail _ (.tail _ (.tail _ (.head _)))))))))))) (fun y1693 hy1693 => Signature.json_ne_null)
        (fun y1693 hy1693 => Signature.json_rt ((h.signature nofun) y1693 hy1693))) ?_
    refine bindOk rfl ?_
    refine bindOk rfl ?_
    refine bindOk rfl ?_
    rfl
  | v1_5 =>
    have hn : ["bomFormat", "specVersion", "version", "serialNumber", "metadata", "components", "services", "externalReferences", "dependencies", "compositions", "vulnerabilities", "signature", "annotations", "properties", "formulation"].Nodup := by decide
    refine bindOk (Json.fields_mk _) ?_
    refine bindOk (Json.req_mk hn (.head _) (rfl)) ?_
    refine bindOk (Json.req_mk hn (.tail _ (.head _)) (SpecVersion.json_rt)) ?_
    refine bindOk (Json.req_mk hn (.tail _ (.tail _ (.head _))) (Json.u32_rt h.version)) ?_
    refine bindOk (Json.opt_id hn (.tail _ (.tail _ (.tail _ (.head _)))) (fun y1694 hy1694 => Json.str_ne_null)
        (fun y1694 hy1694 => rfl)) ?_
    refine bindOk (Json.opt_mk hn (.tail _ (.tail _ (.tail _ (.tail _ (.head _))))) (fun y1695 hy1695 => Metadata.json_ne_null)
        (fun y1695 hy1695 => Metadata.json_rt .v1_5 (h.metadata y1695 hy1695))) ?_
    refine bindOk (Json.opt_mk hn (.tail _ (.tail _ (.tail _ (.tail _ (.tail _ (.head _)))))) (fun y1696 hy1696 => Json.ofList_ne_null)
        (fun y1696 hy1696 => Json.array_ofList (fun y1697 hy1697 => Component.json_rt .v1_5 ((h.components y1696 hy1696) y1697 hy1697)))) ?_
    refine bindOk (Json.opt_mk hn (.tail _ (.tail _ (.tail _ (.tail _ (.tail _ (.tail _ (.head _))))))) (fun y1698 hy1698 => Json.ofList_ne_null)
        (fun y1698 hy1698 => Json.array_ofList (fun y1699 hy1699 => Service.json_rt .v1_5 ((h.services y1698 hy1698) y1699 hy1699)))) ?_
    refine bindOk (Json.opt_id hn (.tail _ (.tail _ (.tail _ (.tail _ (.tail _ (.tail _ (.tail _ (.head _)))))))) (fun y1700 hy1700 => Json.ofList_ne_null)
        (fun y1700 hy1700 => Json.array_id (fun y1701 hy1701 => ExternalReference.json_rt ((h.externalReferences y1700 hy1700) y1701 hy1701)))) ?_
    refine bindOk (Json.opt_id hn (.tail _ (.tail _ (.tail _ (.tail _ (.tail _ (.tail _ (.tail _ (.tail _ (.head _))))))))) (fun y1702 hy1702 => Json.ofList_ne_null)
        (fun y1702 hy1702 => Json.array_id (fun y1703 hy1703 => Dependency.json_rt))) ?_
    refine bindOk (Json.opt_mk hn (.tail _ (.tail _ (.tail _ (.tail _ (.tail _ (.tail _ (.tail _ (.tail _ (.tail _ (.head _)))))))))) (fun y1704 hy1704 => Json.ofList_ne_null)
        (fun y1704 hy1704 => Json.array_ofList (fun y1705 hy1705 => Composition.json_rt .v1_5 ((h.compositions y1704 hy1704) y1705 hy1705)))) ?_
    refine bindOk (Json.opt_mk hn (.tail _ (.tail _ (.tail _ (.tail _ (.tail _ (.tail _ (.tail _ (.tail _ (.tail _ (.tail _ (.head _))))))))))) (fun y1706 hy1706 => Json.ofList_ne_null)
        (fun y1706 hy1706 => Json.array_ofList (fun y1707 hy1707 => Vulnerability.json_rt .v1_5 (((h.vulnerabilities nofun) y1706 hy1706) y1707 hy1707)))) ?_
    refine bindOk (Json.opt_id hn (.tail _ (.tail _ (.tail _ (.tail _ (.tail _ (.tail _ (.tail _ (.tail _ (.tail _ (.tail _ (.tail _ (.head _)))))))))))) (fun y1708 hy1708 => Signature.json_ne_null)
        (fun y1708 hy1708 => Signature.json_rt ((h.signature nofun) y1708 hy1708))) ?_
    refine bindOk (Json.opt_mk hn (.tail _ (.tail _ (.tail _ (.tail _ (.tail _ (.tail _ (.tail _ (.tail _ (.tail _ (.tail _ (.tail _ (.tail _ (.head _))))))))))))) (fun y1709 hy1709 => Json.ofList_ne_null)
        (fun y1709 hy1709 => Json.array_ofList (fun y1710 hy1710 => Annotation.json_rt .v1_5 (((h.annotations rfl) y1709 hy1709) y1710 hy1710)))) ?_
    refine bindOk (Json.opt_id hn (.tail _ (.tail _ (.tail _ (.tail _ (.tail _ (.tail _ (.tail _ (.tail _ (.tail _ (.tail _ (.tail _ (.tail _ (.tail _ (.head _)))))))))))))) (fun y1711 hy1711 => Json.ofList_ne_null)
        (fun y1711 hy1711 => Json.array_id (fun y1712 hy1712 => Property.json_rt))) ?_
    refine bindOk (Json.opt_mk hn (.tail _ (.tail _ (.tail _ (.tail _ (.tail _ (.tail _ (.tail _ (.tail _ (.tail _ (.tail _ (.tail _ (.tail _ (.tail _ (.tail _ (.head _))))))))))))))) (fun y1713 hy1713 => Json.ofList_ne_null)
        (fun y1713 hy1713 => Json.array_ofList (fun y1714 hy1714 => Formula.json_rt .v1_5 (((h.formulation rfl) y1713 hy1713) y1714 hy1714)))) ?_
    rfl

theorem Bom.xml_body_wf {loose : Bool} {v : SpecVersion} (hl : v = .v1_5 → loose = true) {x : Bom} : WellFormed loose (
    (writeOpt (Metadata.writeXml v) x.metadata) ++
    ((writeOpt (writeList "components" (Component.writeXml v)) x.components) ++
    ((writeOpt (writeList "services" (Service.writeXml v)) x.services) ++
    ((writeOpt (writeList "externalReferences" ExternalReference.writeXml) x.externalReferences) ++
    ((writeOpt (writeList "dependencies" Dependency.writeXml) x.dependencies) ++
    ((writeOpt (writeList "compositions" (Composition.writeXml v)) x.compositions) ++
    ((since15 v (writeOpt (writeList "properties" Property.writeXml) x.properties) []) ++
    ((since14 v (writeOpt (writeList "vulnerabilities" (Vulnerability.writeXml v)) x.vulnerabilities) []) ++
    ((since15 v (writeOpt (writeList "formulation" (Formula.writeXml v)) x.formulation) [])))))))))) :=
  (.append (writeOpt_wf fun _ _ => (Metadata.xml_wf hl))
    (.append (writeOpt_wf fun _ _ => (writeList_wf fun _ _ => (Component.xml_wf hl)))
    (.append (writeOpt_wf fun _ _ => (writeList_wf fun _ _ => (Service.xml_wf hl)))
    (.append (writeOpt_wf fun _ _ => (writeList_wf fun _ _ => ExternalReference.xml_wf))
    (.append (writeOpt_wf fun _ _ => (writeList_wf fun _ _ => Dependency.xml_wf))
    (.append (writeOpt_wf fun _ _ => (writeList_wf fun _ _ => Composition.xml_wf))
    (.append (since15_wf fun _ => (writeOpt_wf fun _ _ => (writeList_wf fun _ _ => Property.xml_wf)))
    (.append (since14_wf (writeOpt_wf fun _ _ => (writeList_wf fun _ _ => (Vulnerability.xml_wf hl))))
    (since15_wf fun e => WellFormed.loosen (writeOpt_wf fun _ _ => (writeList_wf fun _ _ => Formula.xml_wf)) (hl e))))))))))

theorem Bom.xml_one {loose : Bool} {v : SpecVersion} (hl : v = .v1_5 → loose = true) {x : Bom} :
    OneElement loose "bom" (Bom.writeXml v x) :=
  writeElem_one (goodAttrs (by decide : ["serialNumber", "version"].Nodup)) (Bom.xml_body_wf hl)

theorem Bom.xml_wf {loose : Bool} {v : SpecVersion} (hl : v = .v1_5 → loose = true) {x : Bom} :
    WellFormed loose (Bom.writeXml v x) :=
  (Bom.xml_one hl).wf

theorem Bom.arms_local (v : SpecVersion) :
    ∀ p ∈ Bom.arms v, LocalArm p.1 p.2 :=
  (armsAppend (armsAppend (armsCons (arm_local (Metadata.xml_local v) _)
    (armsCons (arm_local (readListLax_local (Component.xml_local v)) _)
    (armsCons (arm_local (readListLax_local (Service.xml_local v)) _)
    (armsCons (arm_local (readList_local ExternalReference.xml_local) _)
    (armsCons (arm_local (readList_local Dependency.xml_local) _)
    (armsCons (arm_local (readListLax_local (Composition.xml_local v)) _)
    armsNil))))))
    (armsSince14 (armsCons (arm_local (readListLax_local (Vulnerability.xml_local v)) _)
    (armsCons (arm_local Signature.xml_local _)
    armsNil))))
    (armsSince15 (armsCons (arm_local (readListLax_local Property.xml_local) _)
    (armsCons (arm_local (readList_local (Annotation.xml_local v)) _)
    (armsCons (arm_local (readList_local (Formula.xml_local v)) _)
    armsNil)))))

theorem Bom.xml_local (v : SpecVersion) {tag : String} :
    LocalAt tag (Bom.readXml v) :=
  readStruct_local (by simp) (Bom.arms_local v)

theorem Bom.xml_reads (v : SpecVersion) {ns : Option String} {x : Bom} (h : Bom.XmlOk v x) :
    Reads ns (Bom.writeXml v x) "bom" (Bom.readXml v) (x.at v) := by
  cases v with
  | v1_3 =>
    have hn : ["metadata", "components", "services", "externalReferences", "dependencies", "compositions"].Nodup := by decide
    refine reads_struct (p := (x.version, x.serialNumber)) (Bom.xml_body_wf (fun _ => rfl)) ?_
        (Goes.append (Goes.opt_at (fun o s => { s with metadata := o }) (.head _) hn (fun _ => rfl) rfl
            (fun y1730 hy1730 => Metadata.xml_reads .v1_3 (h.metadata y1730 hy1730)))
          (Goes.append (Goes.opt_at (fun o s => { s with components := o }) (.tail _ (.head _)) hn (fun _ => rfl) rfl
            (fun y1731 hy1731 => reads_listLax_at (fun y1732 hy1732 => Component.xml_reads .v1_3 ((h.components y1731 hy1731) y1732 hy1732)) (fun _ _ => (Component.xml_wf fun _ => rfl))))
          (Goes.append (Goes.opt_at (fun o s => { s with services := o }) (.tail _ (.tail _ (.head _))) hn (fun _ => rfl) rfl
            (fun y1733 hy1733 => reads_listLax_at (fun y1734 hy1734 => Service.xml_reads .v1_3 ((h.services y1733 hy1733) y1734 hy1734)) (fun _ _ => (Service.xml_wf fun _ => rfl))))
          (Goes.append (Goes.opt (fun o s => { s with externalReferences := o }) (.tail _ (.tail _ (.tail _ (.head _)))) hn (fun _ => rfl) rfl
            (fun y1735 hy1735 => reads_list (fun y1736 hy1736 => ExternalReference.xml_reads ((h.externalReferences y1735 hy1735) y1736 hy1736)) (fun _ _ => ExternalReference.xml_wf)))
          (Goes.append (Goes.opt (fun o s => { s with dependencies := o }) (.tail _ (.tail _ (.tail _ (.tail _ (.head _))))) hn (fun _ => rfl) rfl
            (fun y1737 hy1737 => reads_list (fun y1738 hy1738 => Dependency.xml_reads) (fun _ _ => Dependency.xml_wf)))
          (Goes.append (Goes.opt_at (fun o s => { s with compositions := o }) (.tail _ (.tail _ (.tail _ (.tail _ (.tail _ (.head _)))))) hn (fun _ => rfl) rfl
            (fun y1739 hy1739 => reads_listLax_at (fun y1740 hy1740 => Composition.xml_reads .v1_3 ((h.compositions y1739 hy1739) y1740 hy1740)) (fun _ _ => Composition.xml_wf)))
          (Goes.append (Goes.nil)
          (Goes.append (Goes.nil)
          (Goes.nil)
          .nil)
          .nil)
          (writeOpt_wf fun _ _ => (writeList_wf fun _ _ => Composition.xml_wf)))
          (writeOpt_wf fun _ _ => (writeList_wf fun _ _ => Dependency.xml_wf)))
          (writeOpt_wf fun _ _ => (writeList_wf fun _ _ => ExternalReference.xml_wf)))
          (writeOpt_wf fun _ _ => (writeList_wf fun _ _ => (Service.xml_wf fun _ => rfl))))
          (writeOpt_wf fun _ _ => (writeList_wf fun _ _ => (Component.xml_wf fun _ => rfl))))
          (writeOpt_wf fun _ _ => (Metadata.xml_wf fun _ => rfl))) ?_
    · exact Bom.attrs_read h.version
    · rfl
  | v1_4 =>
    obtain ⟨version, serialNumber, metadata, components, services, externalReferences, dependencies, compositions, properties, vulnerabilities, signature, annotations, formulation, specVersion⟩ := x
    obtain rfl : signature = none := (h.signature nofun)
    have hn : ["metadata", "components", "services", "externalReferences", "dependencies", "compositions", "vulnerabilities", "signature"].Nodup := by decide
    refine reads_struct (p := (version, serialNumber)) (Bom.xml_body_wf (fun _ => rfl)) ?_
        (Goes.append (Goes.opt_at (fun o s => { s with metadata := o }) (.head _) hn (fun _ => rfl) rfl
            (fun y1741 hy1741 => Metadata.xml_reads .v1_4 (h.metadata y1741 hy1741)))
          (Goes.append (Goes.opt_at (fun o s => { s with components := o }) (.tail _ (.head _)) hn (fun _ => rfl) rfl
            (fun y1742 hy1742 => reads_listLax_at (fun y1743 hy1743 => Component.xml_reads .v1_4 ((h.components y1742 hy1742) y1743 hy1743)) (fun _ _ => (Component.xml_wf fun _ => rfl))))
          (Goes.append (Goes.opt_at (fun o s => { s with services := o }) (.tail _ (.tail _ (.head _))) hn (fun _ => rfl) rfl
            (fun y1744 hy1744 => reads_listLax_at (fun y1745 hy1745 => Service.xml_reads .v1_4 ((h.services y1744 hy1744) y1745 hy1745)) (fun _ _ => (Service.xml_wf fun _ => rfl))))
          (Goes.append (Goes.opt (fun o s => { s with externalReferences := o }) (.tail _ (.tail _ (.tail _ (.head _)))) hn (fun _ => rfl) rfl
            (fun y1746 hy1746 => reads_list (fun y1747 hy1747 => ExternalReference.xml_reads ((h.externalReferences y1746 hy1746) y1747 hy1747)) (fun _ _ => ExternalReference.xml_wf)))
          (Goes.append (Goes.opt (fun o s => { s with dependencies := o }) (.tail _ (.tail _ (.tail _ (.tail _ (.head _))))) hn (fun _ => rfl) rfl
            (fun y1748 hy1748 => reads_list (fun y1749 hy1749 => Dependency.xml_reads) (fun _ _ => Dependency.xml_wf)))
          (Goes.append (Goes.opt_at (fun o s => { s with compositions := o }) (.tail _ (.tail _ (.tail _ (.tail _ (.tail _ (.head _)))))) hn (fun _ => rfl) rfl
            (fun y1750 hy1750 => reads_listLax_at (fun y1751 hy1751 => Composition.xml_reads .v1_4 ((h.compositions y1750 hy1750) y1751 hy1751)) (fun _ _ => Composition.xml_wf)))
          (Goes.append (Goes.nil)
          (Goes.append (Goes.opt_at (fun o s => { s with vulnerabilities := o }) (.tail _ (.tail _ (.tail _ (.tail _ (.tail _ (.tail _ (.head _))))))) hn (fun _ => rfl) rfl
            (fun y1752 hy1752 => reads_listLax_at (fun y1753 hy1753 => Vulnerability.xml_reads .v1_4 (((h.vulnerabilities nofun) y1752 hy1752) y1753 hy1753)) (fun _ _ => (Vulnerability.xml_wf fun _ => rfl))))
          (Goes.nil)
          (writeOpt_wf fun _ _ => (writeList_wf fun _ _ => (Vulnerability.xml_wf fun _ => rfl))))
          .nil)
          (writeOpt_wf fun _ _ => (writeList_wf fun _ _ => Composition.xml_wf)))
          (writeOpt_wf fun _ _ => (writeList_wf fun _ _ => Dependency.xml_wf)))
          (writeOpt_wf fun _ _ => (writeList_wf fun _ _ => ExternalReference.xml_wf)))
          (writeOpt_wf fun _ _ => (writeList_wf fun _ _ => (Service.xml_wf fun _ => rfl))))
          (writeOpt_wf fun _ _ => (writeList_wf fun _ _ => (Component.xml_wf fun _ => rfl))))
          (writeOpt_wf fun _ _ => (Metadata.xml_wf fun _ => rfl))) ?_
    · exact Bom.attrs_read h.version
    · rfl
  | v1_5 =>
    obtain ⟨version, serialNumber, metadata, components, services, externalReferences, dependencies, compositions, properties, vulnerabilities, signature, annotations, formulation, specVersion⟩ := x
    obtain rfl : signature = none := (h.signature nofun)
    obtain rfl : annotations = none := (h.annotations rfl)
    have hn : ["metadata", "components", "services", "externalReferences", "dependencies", "compositions", "vulnerabilities", "signature", "properties", "annotations", "formulation"].Nodup := by decide
    refine reads_struct (p := (version, serialNumber)) (Bom.xml_body_wf (fun _ => rfl)) ?_
        (Goes.append (Goes.opt_at (fun o s => { s with metadata := o }) (.head _) hn (fun _ => rfl) rfl
            (fun y1754 hy1754 => Metadata.xml_reads .v1_5 (h.metadata y1754 hy1754)))
          (Goes.append (Goes.opt_at (fun o s => { s with components := o }) (.tail _ (.head _)) hn (fun _ => rfl) rfl
            (fun y1755 hy1755 => reads_listLax_at (fun y1756 hy1756 => Component.xml_reads .v1_5 ((h.components y1755 hy1755) y1756 hy1756)) (fun _ _ => (Component.xml_wf fun _ => rfl))))
          (Goes.append (Goes.opt_at (fun o s => { s with services := o }) (.tail _ (.tail _ (.head _))) hn (fun _ => rfl) rfl
            (fun y1757 hy1757 => reads_listLax_at (fun y1758 hy1758 => Service.xml_reads .v1_5 ((h.services y1757 hy1757) y1758 hy1758)) (fun _ _ => (Service.xml_wf fun _ => rfl))))
          (Goes.append (Goes.opt (fun o s => { s with externalReferences := o }) (.tail _ (.tail _ (.tail _ (.head _)))) hn (fun _ => rfl) rfl
            (fun y1759 hy1759 => reads_list (fun y1760 hy1760 => ExternalReference.xml_reads ((h.externalReferences y1759 hy1759) y1760 hy1760)) (fun _ _ => ExternalReference.xml_wf)))
          (Goes.append (Goes.opt (fun o s => { s with dependencies := o }) (.tail _ (.tail _ (.tail _ (.tail _ (.head _))))) hn (fun _ => rfl) rfl
            (fun y1761 hy1761 => reads_list (fun y1762 hy1762 => Dependency.xml_reads) (fun _ _ => Dependency.xml_wf)))
          (Goes.append (Goes.opt_at (fun o s => { s with compositions := o }) (.tail _ (.tail _ (.tail _ (.tail _ (.tail _ (.head _)))))) hn (fun _ => rfl) rfl
            (fun y1763 hy1763 => reads_listLax_at (fun y1764 hy1764 => Composition.xml_reads .v1_5 ((h.compositions y1763 hy1763) y1764 hy1764)) (fun _ _ => Composition.xml_wf)))
          (Goes.append (Goes.opt (fun o s => { s with properties := o }) (.tail _ (.tail _ (.tail _ (.tail _ (.tail _ (.tail _ (.tail _ (.tail _ (.head _))))))))) hn (fun _ => rfl) rfl
            (fun y1765 hy1765 => reads_listLax (fun y1766 hy1766 => Property.xml_reads (((h.properties rfl) y1765 hy1765) y1766 hy1766)) (fun _ _ => Property.xml_wf)))
          (Goes.append (Goes.opt_at (fun o s => { s with vulnerabilities := o }) (.tail _ (.tail _ (.tail _ (.tail _ (.tail _ (.tail _ (.head _))))))) hn (fun _ => rfl) rfl
            (fun y1767 hy1767 => reads_listLax_at (fun y1768 hy1768 => Vulnerability.xml_reads .v1_5 (((h.vulnerabilities nofun) y1767 hy1767) y1768 hy1768)) (fun _ _ => (Vulnerability.xml_wf fun _ => rfl))))
          (Goes.opt_at (fun o s => { s with formulation := o }) (.tail _ (.tail _ (.tail _ (.tail _ (.tail _ (.tail _ (.tail _ (.tail _ (.tail _ (.tail _ (.head _))))))))))) hn (fun _ => rfl) rfl
            (fun y1769 hy1769 => reads_list_at (fun y1770 hy1770 => Formula.xml_reads .v1_5 (((h.formulation rfl) y1769 hy1769) y1770 hy1770)) (fun _ _ => Formula.xml_wf)))
          (writeOpt_wf fun _ _ => (writeList_wf fun _ _ => (Vulnerability.xml_wf fun _ => rfl))))
          (writeOpt_wf fun _ _ => (writeList_wf fun _ _ => Property.xml_wf)))
          (writeOpt_wf fun _ _ => (writeList_wf fun _ _ => Composition.xml_wf)))
          (writeOpt_wf fun _ _ => (writeList_wf fun _ _ => Dependency.xml_wf)))
          (writeOpt_wf fun _ _ => (writeList_wf fun _ _ => ExternalReference.xml_wf)))
          (writeOpt_wf fun _ _ => (writeList_wf fun _ _ => (Service.xml_wf fun _ => rfl))))
          (writeOpt_wf fun _ _ => (writeList_wf fun _ _ => (Component.xml_wf fun _ => rfl))))
          (writeOpt_wf fun _ _ => (Metadata.xml_wf fun _ => rfl))) ?_
    · exact Bom.attrs_read h.version
    · rfl

end Cdx
