import Verif.Lemmas.Only.Service

set_option linter.unusedSectionVars false
set_option linter.unusedSimpArgs false
set_option linter.unusedVariables false

/-!
# What is read back from JSON satisfies the conditions: components and metadata
-/

namespace Cdx

variable [F32Format] [ReadLimit]

theorem Pedigree.json_onlyWith (v : SpecVersion) {x : Pedigree}
    {sub : Json → Except String Component}
    (h : Pedigree.ofJsonWith sub v (Pedigree.toJson v x) = .ok (x.at v)) :
    Pedigree.JsonOkWith (fun y => sub (Component.toJson v y) = .ok (Component.at v y)) v x := by
  rw [Pedigree.toJson_eq, Pedigree.at_eq] at h
  have hn : ["ancestors", "descendants", "variants", "commits", "patches", "notes"].Nodup := by decide
  have h := bindWith (Json.fields_mk _) h
  obtain ⟨_, e1, h⟩ := bindInv h
  obtain ⟨_, e2, h⟩ := bindInv h
  obtain ⟨_, e3, h⟩ := bindInv h
  obtain ⟨_, _, h⟩ := bindInv h
  obtain ⟨_, e4, h⟩ := bindInv h
  obtain ⟨_, _, h⟩ := bindInv h
  have h := Except.ok.inj h
  exact ⟨fun y692 hy692 => fun y693 hy693 => (Json.array_inv ((Json.opt_inv e1 hn (.head _) (congrArg Pedigree.ancestors h)) y692 hy692)) y693 hy693,
    fun y694 hy694 => fun y695 hy695 => (Json.array_inv ((Json.opt_inv e2 hn (.tail _ (.head _)) (congrArg Pedigree.descendants h)) y694 hy694)) y695 hy695,
    fun y696 hy696 => fun y697 hy697 => (Json.array_inv ((Json.opt_inv e3 hn (.tail _ (.tail _ (.head _))) (congrArg Pedigree.variants h)) y696 hy696)) y697 hy697,
    fun y700 hy700 => fun y701 hy701 => Patch.json_only ((Json.array_inv_id ((Json.opt_inv_id e4 hn (.tail _ (.tail _ (.tail _ (.tail _ (.head _))))) (congrArg Pedigree.patches h)) y700 hy700)) y701 hy701)⟩

theorem Component.json_onlyWith (v : SpecVersion) {x : Component}
    {sub : Json → Except String Component}
    (h : Component.ofJsonWith sub v (Component.toJson v x) = .ok (x.at v)) :
    Component.JsonOkWith (fun y => sub (Component.toJson v y) = .ok (Component.at v y)) v x := by
  rw [Component.toJson_eq, Component.at_eq] at h
  cases v with
  | v1_3 =>
    have hn : ["type", "mime-type", "bom-ref", "supplier", "author", "publisher", "group", "name", "version", "description", "scope", "hashes", "licenses", "copyright", "cpe", "purl", "swid", "modified", "pedigree", "externalReferences", "properties", "components", "evidence"].Nodup := by decide
    have h := bindWith (Json.fields_mk _) h
    obtain ⟨_, e1, h⟩ := bindInv h
    obtain ⟨_, _, h⟩ := bindInv h
    obtain ⟨_, _, h⟩ := bindInv h
    obtain ⟨_, _, h⟩ := bindInv h
    obtain ⟨_, _, h⟩ := bindInv h
    obtain ⟨_, _, h⟩ := bindInv h
    obtain ⟨_, _, h⟩ := bindInv h
    obtain ⟨_, _, h⟩ := bindInv h
    obtain ⟨_, e2, h⟩ := bindInv h
    obtain ⟨_, _, h⟩ := bindInv h
    obtain ⟨_, e3, h⟩ := bindInv h
    obtain ⟨_, e4, h⟩ := bindInv h
    obtain ⟨_, e5, h⟩ := bindInv h
    obtain ⟨_, _, h⟩ := bindInv h
    obtain ⟨_, _, h⟩ := bindInv h
    obtain ⟨_, _, h⟩ := bindInv h
    obtain ⟨_, e6, h⟩ := bindInv h
    obtain ⟨_, _, h⟩ := bindInv h
    obtain ⟨_, e7, h⟩ := bindInv h
    obtain ⟨_, e8, h⟩ := bindInv h
    obtain ⟨_, _, h⟩ := bindInv h
    obtain ⟨_, e9, h⟩ := bindInv h
    obtain ⟨_, e10, h⟩ := bindInv h
    obtain ⟨_, _, h⟩ := bindInv h
    obtain ⟨_, _, h⟩ := bindInv h
    obtain ⟨_, _, h⟩ := bindInv h
    have h := Except.ok.inj h
    exact ⟨fun _ => Json.need_inv e2 hn (.tail _ (.tail _ (.tail _ (.tail _ (.tail _ (.tail _ (.tail _ (.tail _ (.head _))))))))),
      Json.enum_inv (Json.req_inv e1 hn (.head _) (congrArg Component.componentType h)),
      fun y746 hy746 => Json.enum_inv ((Json.opt_inv_id e3 hn (.tail _ (.tail _ (.tail _ (.tail _ (.tail _ (.tail _ (.tail _ (.tail _ (.tail _ (.tail _ (.head _))))))))))) (congrArg Component.scope h)) y746 hy746),
      fun y747 hy747 => fun y748 hy748 => Hash.json_only ((Json.array_inv_id ((Json.opt_inv_id e4 hn (.tail _ (.tail _ (.tail _ (.tail _ (.tail _ (.tail _ (.tail _ (.tail _ (.tail _ (.tail _ (.tail _ (.head _)))))))))))) (congrArg Component.hashes h)) y747 hy747)) y748 hy748),
      fun y749 hy749 => Licenses.json_only .v1_3 ((Json.opt_inv e5 hn (.tail _ (.tail _ (.tail _ (.tail _ (.tail _ (.tail _ (.tail _ (.tail _ (.tail _ (.tail _ (.tail _ (.tail _ (.head _))))))))))))) (congrArg Component.licenses h)) y749 hy749),
      fun y753 hy753 => Swid.json_only ((Json.opt_inv_id e6 hn (.tail _ (.tail _ (.tail _ (.tail _ (.tail _ (.tail _ (.tail _ (.tail _ (.tail _ (.tail _ (.tail _ (.tail _ (.tail _ (.tail _ (.tail _ (.tail _ (.head _))))))))))))))))) (congrArg Component.swid h)) y753 hy753),
      fun y755 hy755 => Pedigree.json_onlyWith .v1_3 ((Json.opt_inv e7 hn (.tail _ (.tail _ (.tail _ (.tail _ (.tail _ (.tail _ (.tail _ (.tail _ (.tail _ (.tail _ (.tail _ (.tail _ (.tail _ (.tail _ (.tail _ (.tail _ (.tail _ (.tail _ (.head _))))))))))))))))))) (congrArg Component.pedigree h)) y755 hy755),
      fun y756 hy756 => fun y757 hy757 => ExternalReference.json_only ((Json.array_inv_id ((Json.opt_inv_id e8 hn (.tail _ (.tail _ (.tail _ (.tail _ (.tail _ (.tail _ (.tail _ (.tail _ (.tail _ (.tail _ (.tail _ (.tail _ (.tail _ (.tail _ (.tail _ (.tail _ (.tail _ (.tail _ (.tail _ (.head _)))))))))))))))))))) (congrArg Component.externalReferences h)) y756 hy756)) y757 hy757),
      fun y760 hy760 => fun y761 hy761 => (Json.array_inv ((Json.opt_inv e9 hn (.tail _ (.tail _ (.tail _ (.tail _ (.tail _ (.tail _ (.tail _ (.tail _ (.tail _ (.tail _ (.tail _ (.tail _ (.tail _ (.tail _ (.tail _ (.tail _ (.tail _ (.tail _ (.tail _ (.tail _ (.tail _ (.head _)))))))))))))))))))))) (congrArg Component.components h)) y760 hy760)) y761 hy761,
      fun y762 hy762 => ComponentEvidence.json_only .v1_3 ((Json.opt_inv e10 hn (.tail _ (.tail _ (.tail _ (.tail _ (.tail _ (.tail _ (.tail _ (.tail _ (.tail _ (.tail _ (.tail _ (.tail _ (.tail _ (.tail _ (.tail _ (.tail _ (.tail _ (.tail _ (.tail _ (.tail _ (.tail _ (.tail _ (.head _))))))))))))))))))))))) (congrArg Component.evidence h)) y762 hy762),
      fun hv => absurd rfl hv,
      fun hv => (nomatch hv),
      fun hv => (nomatch hv)⟩
  | v1_4 =>
    have hn : ["type", "mime-type", "bom-ref", "supplier", "author", "publisher", "group", "name", "version", "description", "scope", "hashes", "licenses", "copyright", "cpe", "purl", "swid", "modified", "pedigree", "externalReferences", "properties", "components", "evidence", "signature"].Nodup := by decide
    have h := bindWith (Json.fields_mk _) h
    obtain ⟨_, e1, h⟩ := bindInv h
    obtain ⟨_, _, h⟩ := bindInv h
    obtain ⟨_, _, h⟩ := bindInv h
    obtain ⟨_, _, h⟩ := bindInv h
    obtain ⟨_, _, h⟩ := bindInv h
    obtain ⟨_, _, h⟩ := bindInv h
    obtain ⟨_, _, h⟩ := bindInv h
    obtain ⟨_, _, h⟩ := bindInv h
    obtain ⟨_, _, h⟩ := bindInv h
    obtain ⟨_, _, h⟩ := bindInv h
    obtain ⟨_, e2, h⟩ := bindInv h
    obtain ⟨_, e3, h⟩ := bindInv h
    obtain ⟨_, e4, h⟩ := bindInv h
    obtain ⟨_, _, h⟩ := bindInv h
    obtain ⟨_, _, h⟩ := bindInv h
    obtain ⟨_, _, h⟩ := bindInv h
    obtain ⟨_, e5, h⟩ := bindInv h
    obtain ⟨_, _, h⟩ := bindInv h
    obtain ⟨_, e6, h⟩ := bindInv h
    obtain ⟨_, e7, h⟩ := bindInv h
    obtain ⟨_, _, h⟩ := bindInv h
    obtain ⟨_, e8, h⟩ := bindInv h
    obtain ⟨_, e9, h⟩ := bindInv h
    obtain ⟨_, e10, h⟩ := bindInv h
    obtain ⟨_, _, h⟩ := bindInv h
    obtain ⟨_, _, h⟩ := bindInv h
    have h := Except.ok.inj h
    exact ⟨fun hv => (nomatch hv),
      Json.enum_inv (Json.req_inv e1 hn (.head _) (congrArg Component.componentType h)),
      fun y771 hy771 => Json.enum_inv ((Json.opt_inv_id e2 hn (.tail _ (.tail _ (.tail _ (.tail _ (.tail _ (.tail _ (.tail _ (.tail _ (.tail _ (.tail _ (.head _))))))))))) (congrArg Component.scope h)) y771 hy771),
      fun y772 hy772 => fun y773 hy773 => Hash.json_only ((Json.array_inv_id ((Json.opt_inv_id e3 hn (.tail _ (.tail _ (.tail _ (.tail _ (.tail _ (.tail _ (.tail _ (.tail _ (.tail _ (.tail _ (.tail _ (.head _)))))))))))) (congrArg Component.hashes h)) y772 hy772)) y773 hy773),
      fun y774 hy774 => Licenses.json_only .v1_4 ((Json.opt_inv e4 hn (.tail _ (.tail _ (.tail _ (.tail _ (.tail _ (.tail _ (.tail _ (.tail _ (.tail _ (.tail _ (.tail _ (.tail _ (.head _))))))))))))) (congrArg Component.licenses h)) y774 hy774),
      fun y778 hy778 => Swid.json_only ((Json.opt_inv_id e5 hn (.tail _ (.tail _ (.tail _ (.tail _ (.tail _ (.tail _ (.tail _ (.tail _ (.tail _ (.tail _ (.tail _ (.tail _ (.tail _ (.tail _ (.tail _ (.tail _ (.head _))))))))))))))))) (congrArg Component.swid h)) y778 hy778),
      fun y780 hy780 => Pedigree.json_onlyWith .v1_4 ((Json.opt_inv e6 hn (.tail _ (.tail _ (.tail _ (.tail _ (.tail _ (.tail _ (.tail _ (.tail _ (.tail _ (.tail _ (.tail _ (.tail _ (.tail _ (.tail _ (.tail _ (.tail _ (.tail _ (.tail _ (.head _))))))))))))))))))) (congrArg Component.pedigree h)) y780 hy780),
      fun y781 hy781 => fun y782 hy782 => ExternalReference.json_only ((Json.array_inv_id ((Json.opt_inv_id e7 hn (.tail _ (.tail _ (.tail _ (.tail _ (.tail _ (.tail _ (.tail _ (.tail _ (.tail _ (.tail _ (.tail _ (.tail _ (.tail _ (.tail _ (.tail _ (.tail _ (.tail _ (.tail _ (.tail _ (.head _)))))))))))))))))))) (congrArg Component.externalReferences h)) y781 hy781)) y782 hy782),
      fun y785 hy785 => fun y786 hy786 => (Json.array_inv ((Json.opt_inv e8 hn (.tail _ (.tail _ (.tail _ (.tail _ (.tail _ (.tail _ (.tail _ (.tail _ (.tail _ (.tail _ (.tail _ (.tail _ (.tail _ (.tail _ (.tail _ (.tail _ (.tail _ (.tail _ (.tail _ (.tail _ (.tail _ (.head _)))))))))))))))))))))) (congrArg Component.components h)) y785 hy785)) y786 hy786,
      fun y787 hy787 => ComponentEvidence.json_only .v1_4 ((Json.opt_inv e9 hn (.tail _ (.tail _ (.tail _ (.tail _ (.tail _ (.tail _ (.tail _ (.tail _ (.tail _ (.tail _ (.tail _ (.tail _ (.tail _ (.tail _ (.tail _ (.tail _ (.tail _ (.tail _ (.tail _ (.tail _ (.tail _ (.tail _ (.head _))))))))))))))))))))))) (congrArg Component.evidence h)) y787 hy787),
      fun _ => fun y788 hy788 => Signature.json_only ((Json.opt_inv_id e10 hn (.tail _ (.tail _ (.tail _ (.tail _ (.tail _ (.tail _ (.tail _ (.tail _ (.tail _ (.tail _ (.tail _ (.tail _ (.tail _ (.tail _ (.tail _ (.tail _ (.tail _ (.tail _ (.tail _ (.tail _ (.tail _ (.tail _ (.tail _ (.head _)))))))))))))))))))))))) (congrArg Component.signature h)) y788 hy788),
      fun hv => (nomatch hv),
      fun hv => (nomatch hv)⟩
  | v1_5 =>
    have hn : ["type", "mime-type", "bom-ref", "supplier", "author", "publisher", "group", "name", "version", "description", "scope", "hashes", "licenses", "copyright", "cpe", "purl", "swid", "modified", "pedigree", "externalReferences", "properties", "components", "evidence", "signature", "modelCard", "data"].Nodup := by decide
    have h := bindWith (Json.fields_mk _) h
    obtain ⟨_, e1, h⟩ := bindInv h
    obtain ⟨_, _, h⟩ := bindInv h
    obtain ⟨_, _, h⟩ := bindInv h
    obtain ⟨_, _, h⟩ := bindInv h
    obtain ⟨_, _, h⟩ := bindInv h
    obtain ⟨_, _, h⟩ := bindInv h
    obtain ⟨_, _, h⟩ := bindInv h
    obtain ⟨_, _, h⟩ := bindInv h
    obtain ⟨_, _, h⟩ := bindInv h
    obtain ⟨_, _, h⟩ := bindInv h
    obtain ⟨_, e2, h⟩ := bindInv h
    obtain ⟨_, e3, h⟩ := bindInv h
    obtain ⟨_, e4, h⟩ := bindInv h
    obtain ⟨_, _, h⟩ := bindInv h
    obtain ⟨_, _, h⟩ := bindInv h
    obtain ⟨_, _, h⟩ := bindInv h
    obtain ⟨_, e5, h⟩ := bindInv h
    obtain ⟨_, _, h⟩ := bindInv h
    obtain ⟨_, e6, h⟩ := bindInv h
    obtain ⟨_, e7, h⟩ := bindInv h
    obtain ⟨_, _, h⟩ := bindInv h
    obtain ⟨_, e8, h⟩ := bindInv h
    obtain ⟨_, e9, h⟩ := bindInv h
    obtain ⟨_, e10, h⟩ := bindInv h
    obtain ⟨_, e11, h⟩ := bindInv h
    obtain ⟨_, e12, h⟩ := bindInv h
    have h := Except.ok.inj h
    exact ⟨fun hv => (nomatch hv),
      Json.enum_inv (Json.req_inv e1 hn (.head _) (congrArg Component.componentType h)),
      fun y797 hy797 => Json.enum_inv ((Json.opt_inv_id e2 hn (.tail _ (.tail _ (.tail _ (.tail _ (.tail _ (.tail _ (.tail _ (.tail _ (.tail _ (.tail _ (.head _))))))))))) (congrArg Component.scope h)) y797 hy797),
      fun y798 hy798 => fun y799 hy799 => Hash.json_only ((Json.array_inv_id ((Json.opt_inv_id e3 hn (.tail _ (.tail _ (.tail _ (.tail _ (.tail _ (.tail _ (.tail _ (.tail _ (.tail _ (.tail _ (.tail _ (.head _)))))))))))) (congrArg Component.hashes h)) y798 hy798)) y799 hy799),
      fun y800 hy800 => Licenses.json_only .v1_5 ((Json.opt_inv e4 hn (.tail _ (.tail _ (.tail _ (.tail _ (.tail _ (.tail _ (.tail _ (.tail _ (.tail _ (.tail _ (.tail _ (.tail _ (.head _))))))))))))) (congrArg Component.licenses h)) y800 hy800),
      fun y804 hy804 => Swid.json_only ((Json.opt_inv_id e5 hn (.tail _ (.tail _ (.tail _ (.tail _ (.tail _ (.tail _ (.tail _ (.tail _ (.tail _ (.tail _ (.tail _ (.tail _ (.tail _ (.tail _ (.tail _ (.tail _ (.head _))))))))))))))))) (congrArg Component.swid h)) y804 hy804),
      fun y806 hy806 => Pedigree.json_onlyWith .v1_5 ((Json.opt_inv e6 hn (.tail _ (.tail _ (.tail _ (.tail _ (.tail _ (.tail _ (.tail _ (.tail _ (.tail _ (.tail _ (.tail _ (.tail _ (.tail _ (.tail _ (.tail _ (.tail _ (.tail _ (.tail _ (.head _))))))))))))))))))) (congrArg Component.pedigree h)) y806 hy806),
      fun y807 hy807 => fun y808 hy808 => ExternalReference.json_only ((Json.array_inv_id ((Json.opt_inv_id e7 hn (.tail _ (.tail _ (.tail _ (.tail _ (.tail _ (.tail _ (.tail _ (.tail _ (.tail _ (.tail _ (.tail _ (.tail _ (.tail _ (.tail _ (.tail _ (.tail _ (.tail _ (.tail _ (.tail _ (.head _)))))))))))))))))))) (congrArg Component.externalReferences h)) y807 hy807)) y808 hy808),
      fun y811 hy811 => fun y812 hy812 => (Json.array_inv ((Json.opt_inv e8 hn (.tail _ (.tail _ (.tail _ (.tail _ (.tail _ (.tail _ (.tail _ (.tail _ (.tail _ (.tail _ (.tail _ (.tail _ (.tail _ (.tail _ (.tail _ (.tail _ (.tail _ (.tail _ (.tail _ (.tail _ (.tail _ (.head _)))))))))))))))))))))) (congrArg Component.components h)) y811 hy811)) y812 hy812,
      fun y813 hy813 => ComponentEvidence.json_only .v1_5 ((Json.opt_inv e9 hn (.tail _ (.tail _ (.tail _ (.tail _ (.tail _ (.tail _ (.tail _ (.tail _ (.tail _ (.tail _ (.tail _ (.tail _ (.tail _ (.tail _ (.tail _ (.tail _ (.tail _ (.tail _ (.tail _ (.tail _ (.tail _ (.tail _ (.head _))))))))))))))))))))))) (congrArg Component.evidence h)) y813 hy813),
      fun _ => fun y814 hy814 => Signature.json_only ((Json.opt_inv_id e10 hn (.tail _ (.tail _ (.tail _ (.tail _ (.tail _ (.tail _ (.tail _ (.tail _ (.tail _ (.tail _ (.tail _ (.tail _ (.tail _ (.tail _ (.tail _ (.tail _ (.tail _ (.tail _ (.tail _ (.tail _ (.tail _ (.tail _ (.tail _ (.head _)))))))))))))))))))))))) (congrArg Component.signature h)) y814 hy814),
      fun _ => fun y815 hy815 => ModelCard.json_only ((Json.opt_inv_id e11 hn (.tail _ (.tail _ (.tail _ (.tail _ (.tail _ (.tail _ (.tail _ (.tail _ (.tail _ (.tail _ (.tail _ (.tail _ (.tail _ (.tail _ (.tail _ (.tail _ (.tail _ (.tail _ (.tail _ (.tail _ (.tail _ (.tail _ (.tail _ (.tail _ (.head _))))))))))))))))))))))))) (congrArg Component.modelCard h)) y815 hy815),
      fun _ => fun y816 hy816 => ComponentData.json_only ((Json.opt_inv_id e12 hn (.tail _ (.tail _ (.tail _ (.tail _ (.tail _ (.tail _ (.tail _ (.tail _ (.tail _ (.tail _ (.tail _ (.tail _ (.tail _ (.tail _ (.tail _ (.tail _ (.tail _ (.tail _ (.tail _ (.tail _ (.tail _ (.tail _ (.tail _ (.tail _ (.tail _ (.head _)))))))))))))))))))))))))) (congrArg Component.data h)) y816 hy816)⟩

theorem Component.json_onlyN (v : SpecVersion) : ∀ {n : Nat} {x : Component},
    Component.ofJsonN v n (Component.toJson v x) = .ok (x.at v) → Component.JsonOkN v n x
  | 0, _, h => nomatch h
  | _ + 1, _, h =>
    Component.JsonOkWith.imp (Component.json_onlyWith v h) fun _ h => Component.json_onlyN v h

theorem Component.json_only (v : SpecVersion) {x : Component}
    (h : Component.ofJson v (Component.toJson v x) = .ok (x.at v)) : Component.JsonOk v x :=
  Component.json_onlyN v h

theorem Tool.json_only (v : SpecVersion) {x : Tool}
    (h : Tool.ofJson v (Tool.toJson v x) = .ok (x.at v)) :
    Tool.JsonOk v x := by
  cases v with
  | v1_3 =>
    have hn : ["vendor", "name", "version", "hashes"].Nodup := by decide
    have h := bindWith (Json.fields_mk _) h
    obtain ⟨_, _, h⟩ := bindInv h
    obtain ⟨_, _, h⟩ := bindInv h
    obtain ⟨_, _, h⟩ := bindInv h
    obtain ⟨_, e1, h⟩ := bindInv h
    obtain ⟨_, _, h⟩ := bindInv h
    have h := Except.ok.inj h
    exact ⟨fun y923 hy923 => fun y924 hy924 => Hash.json_only ((Json.array_inv_id ((Json.opt_inv_id e1 hn (.tail _ (.tail _ (.tail _ (.head _)))) (congrArg Tool.hashes h)) y923 hy923)) y924 hy924),
      fun hv => absurd rfl hv⟩
  | v1_4 =>
    have hn : ["vendor", "name", "version", "hashes", "externalReferences"].Nodup := by decide
    have h := bindWith (Json.fields_mk _) h
    obtain ⟨_, _, h⟩ := bindInv h
    obtain ⟨_, _, h⟩ := bindInv h
    obtain ⟨_, _, h⟩ := bindInv h
    obtain ⟨_, e1, h⟩ := bindInv h
    obtain ⟨_, e2, h⟩ := bindInv h
    have h := Except.ok.inj h
    exact ⟨fun y928 hy928 => fun y929 hy929 => Hash.json_only ((Json.array_inv_id ((Json.opt_inv_id e1 hn (.tail _ (.tail _ (.tail _ (.head _)))) (congrArg Tool.hashes h)) y928 hy928)) y929 hy929),
      fun _ => fun y930 hy930 => fun y931 hy931 => ExternalReference.json_only ((Json.array_inv_id ((Json.opt_inv_id e2 hn (.tail _ (.tail _ (.tail _ (.tail _ (.head _))))) (congrArg Tool.externalReferences h)) y930 hy930)) y931 hy931)⟩
  | v1_5 =>
    have hn : ["vendor", "name", "version", "hashes", "externalReferences"].Nodup := by decide
    have h := bindWith (Json.fields_mk _) h
    obtain ⟨_, _, h⟩ := bindInv h
    obtain ⟨_, _, h⟩ := bindInv h
    obtain ⟨_, _, h⟩ := bindInv h
    obtain ⟨_, e1, h⟩ := bindInv h
    obtain ⟨_, e2, h⟩ := bindInv h
    have h := Except.ok.inj h
    exact ⟨fun y935 hy935 => fun y936 hy936 => Hash.json_only ((Json.array_inv_id ((Json.opt_inv_id e1 hn (.tail _ (.tail _ (.tail _ (.head _)))) (congrArg Tool.hashes h)) y935 hy935)) y936 hy936),
      fun _ => fun y937 hy937 => fun y938 hy938 => ExternalReference.json_only ((Json.array_inv_id ((Json.opt_inv_id e2 hn (.tail _ (.tail _ (.tail _ (.tail _ (.head _))))) (congrArg Tool.externalReferences h)) y937 hy937)) y938 hy938)⟩

theorem Tools.json_only (v : SpecVersion) {x : Tools}
    (h : Tools.ofJson v (Tools.toJson v x) = .ok (x.at v)) : Tools.JsonOk v x := by
  cases x with
  | list l =>
    rw [Tools.ofJson] at h
    cases hl : Json.array (Tool.ofJson v) (Tools.toJson v (.list l)) with
    | ok l' =>
      rw [hl] at h
      cases h
      exact fun y hy => Tool.json_only v (Json.array_inv hl y hy)
    | error e =>
      rw [hl] at h
      cases v <;> exact nomatch h
  | object s c =>
    intro hv
    subst hv
    have hn : ["services", "components"].Nodup := by decide
    have h : Tools.objectOfJson .v1_5 (Tools.toJson .v1_5 (.object s c)) = _ := h
    have h := bindWith (Json.fields_mk _) h
    obtain ⟨y1, e1, h⟩ := bindInv h
    obtain ⟨y2, e2, h⟩ := bindInv h
    obtain ⟨h1, h2⟩ := Tools.object.inj (Except.ok.inj h)
    exact ⟨fun y hy z hz => Service.json_only .v1_5
        (Json.array_inv (Json.opt_inv e1 hn (.head _) h1 y hy) z hz),
      fun y hy z hz => Component.json_only .v1_5
        (Json.array_inv (Json.opt_inv e2 hn (.tail _ (.head _)) h2 y hy) z hz)⟩

theorem Metadata.json_only (v : SpecVersion) {x : Metadata}
    (h : Metadata.ofJson v (Metadata.toJson v x) = .ok (x.at v)) :
    Metadata.JsonOk v x := by
  cases v with
  | v1_3 =>
    have hn : ["timestamp", "tools", "authors", "component", "manufacture", "supplier", "licenses", "properties"].Nodup := by decide
    have h := bindWith (Json.fields_mk _) h
    obtain ⟨_, _, h⟩ := bindInv h
    obtain ⟨_, e1, h⟩ := bindInv h
    obtain ⟨_, _, h⟩ := bindInv h
    obtain ⟨_, e2, h⟩ := bindInv h
    obtain ⟨_, _, h⟩ := bindInv h
    obtain ⟨_, _, h⟩ := bindInv h
    obtain ⟨_, e3, h⟩ := bindInv h
    obtain ⟨_, _, h⟩ := bindInv h
    obtain ⟨_, _, h⟩ := bindInv h
    have h := Except.ok.inj h
    exact ⟨fun y971 hy971 => Tools.json_only .v1_3 ((Json.opt_inv e1 hn (.tail _ (.head _)) (congrArg Metadata.tools h)) y971 hy971),
      fun y974 hy974 => Component.json_only .v1_3 ((Json.opt_inv e2 hn (.tail _ (.tail _ (.tail _ (.head _)))) (congrArg Metadata.component h)) y974 hy974),
      fun y977 hy977 => Licenses.json_only .v1_3 ((Json.opt_inv e3 hn (.tail _ (.tail _ (.tail _ (.tail _ (.tail _ (.tail _ (.head _))))))) (congrArg Metadata.licenses h)) y977 hy977),
      fun hv => (nomatch hv)⟩
  | v1_4 =>
    have hn : ["timestamp", "tools", "authors", "component", "manufacture", "supplier", "licenses", "properties"].Nodup := by decide
    have h := bindWith (Json.fields_mk _) h
    obtain ⟨_, _, h⟩ := bindInv h
    obtain ⟨_, e1, h⟩ := bindInv h
    obtain ⟨_, _, h⟩ := bindInv h
    obtain ⟨_, e2, h⟩ := bindInv h
    obtain ⟨_, _, h⟩ := bindInv h
    obtain ⟨_, _, h⟩ := bindInv h
    obtain ⟨_, e3, h⟩ := bindInv h
    obtain ⟨_, _, h⟩ := bindInv h
    obtain ⟨_, _, h⟩ := bindInv h
    have h := Except.ok.inj h
    exact ⟨fun y981 hy981 => Tools.json_only .v1_4 ((Json.opt_inv e1 hn (.tail _ (.head _)) (congrArg Metadata.tools h)) y981 hy981),
      fun y984 hy984 => Component.json_only .v1_4 ((Json.opt_inv e2 hn (.tail _ (.tail _ (.tail _ (.head _)))) (congrArg Metadata.component h)) y984 hy984),
      fun y987 hy987 => Licenses.json_only .v1_4 ((Json.opt_inv e3 hn (.tail _ (.tail _ (.tail _ (.tail _ (.tail _ (.tail _ (.head _))))))) (congrArg Metadata.licenses h)) y987 hy987),
      fun hv => (nomatch hv)⟩
  | v1_5 =>
    have hn : ["timestamp", "tools", "authors", "component", "manufacture", "supplier", "licenses", "properties", "lifecycles"].Nodup := by decide
    have h := bindWith (Json.fields_mk _) h
    obtain ⟨_, _, h⟩ := bindInv h
    obtain ⟨_, e1, h⟩ := bindInv h
    obtain ⟨_, _, h⟩ := bindInv h
    obtain ⟨_, e2, h⟩ := bindInv h
    obtain ⟨_, _, h⟩ := bindInv h
    obtain ⟨_, _, h⟩ := bindInv h
    obtain ⟨_, e3, h⟩ := bindInv h
    obtain ⟨_, _, h⟩ := bindInv h
    obtain ⟨_, e4, h⟩ := bindInv h
    have h := Except.ok.inj h
    exact ⟨fun y991 hy991 => Tools.json_only .v1_5 ((Json.opt_inv e1 hn (.tail _ (.head _)) (congrArg Metadata.tools h)) y991 hy991),
      fun y994 hy994 => Component.json_only .v1_5 ((Json.opt_inv e2 hn (.tail _ (.tail _ (.tail _ (.head _)))) (congrArg Metadata.component h)) y994 hy994),
      fun y997 hy997 => Licenses.json_only .v1_5 ((Json.opt_inv e3 hn (.tail _ (.tail _ (.tail _ (.tail _ (.tail _ (.tail _ (.head _))))))) (congrArg Metadata.licenses h)) y997 hy997),
      fun _ => fun y1000 hy1000 => fun y1001 hy1001 => Lifecycle.json_only ((Json.array_inv_id ((Json.opt_inv_id e4 hn (.tail _ (.tail _ (.tail _ (.tail _ (.tail _ (.tail _ (.tail _ (.tail _ (.head _))))))))) (congrArg Metadata.lifecycles h)) y1000 hy1000)) y1001 hy1001)⟩

end Cdx
