=== OrganizationalContact
%34|instance (tag : String) (x : OrganizationalContact) : Elem True %v tag .organizationalContact (OrganizationalContact.writeXml tag x) := by
%34|  obtain ⟨bomRef, name, email, phone⟩ := x
%34|  unfold OrganizationalContact.writeXml
%34|  dsimp only
%34|  cases bomRef with
%34|  | none => infer_instance
%34|  | some r =>
%34|    exact elem_own (l := [mayHave "name" .string, mayHave "email" .string, mayHave "phone" .string])
%34|      inferInstance (by decide) trivial (fun xs _ => .bomRef (by simp) (by decide) rfl)
%5|instance (tag : String) (x : OrganizationalContact) : Elem True %v tag .organizationalContact (OrganizationalContact.writeXml tag x) := by
%5|  unfold OrganizationalContact.writeXml; infer_instance
=== OrganizationalEntity
%34|instance (tag : String) (x : OrganizationalEntity) : Elem True %v tag .organizationalEntity (OrganizationalEntity.writeXml tag x) := by
%34|  obtain ⟨bomRef, name, url, contact⟩ := x
%34|  unfold OrganizationalEntity.writeXml
%34|  dsimp only
%34|  cases bomRef with
%34|  | none => infer_instance
%34|  | some r =>
%34|    exact elem_own (l := [mayHave "name" .string, anyNumber "url" .string, anyNumber "contact" .organizationalContact])
%34|      inferInstance (by decide) trivial (fun xs _ => .bomRef (by simp) (by decide) rfl)
%5|instance (tag : String) (x : OrganizationalEntity) : Elem True %v tag .organizationalEntity (OrganizationalEntity.writeXml tag x) := by
%5|  unfold OrganizationalEntity.writeXml; infer_instance
=== Composition
%3|instance (x : Composition) : Elem True %v "composition" .composition (Composition.writeXml %v x) := by
%3|  unfold Composition.writeXml; infer_instance
%45|instance (x : Composition) : Elem True %v "composition" .composition (Composition.writeXml %v x) := by
%45|  obtain ⟨bomRef, aggregate, assemblies, dependencies, vulnerabilities, signature⟩ := x
%45|  unfold Composition.writeXml
%45|  cases signature with
%45|  | none => simp only [since14, since15, writeOpt_none, List.append_nil, List.nil_append]; infer_instance
%45|  | some s =>
%45|    haveI : Carries True %v .composition "signature" (Signature.writeXml s) := carries_foreign (loose := false) Signature.xml_one (by decide)
%45|    exact elem_departs (n := "signature") inferInstance trivial (fun xs h => .signature (by simp) (by decide) h)
=== TargetVersion
instance (x : TargetVersion) : Elem True %v "version" .affectedVersion (TargetVersion.writeXml x) := by
  obtain ⟨range, status⟩ := x
  unfold TargetVersion.writeXml
  cases range with
  | version y => simp only [VersionRange.writeXml]; infer_instance
  | range y => simp only [VersionRange.writeXml]; infer_instance
  | undefinedVersionRange y =>
    simp only [VersionRange.writeXml, List.nil_append]
    refine elem_own (l := [mayHave "status" .string]) inferInstance (by decide) trivial (fun xs h => .version (by decide) ?_ ?_)
    · rintro ⟨x, hx, hn⟩
      obtain ⟨n, hm, e⟩ := h x hx
      rw [hn] at e
      cases e
      exact absurd hm (by decide)
    · rintro ⟨x, hx, hn⟩
      obtain ⟨n, hm, e⟩ := h x hx
      rw [hn] at e
      cases e
      exact absurd hm (by decide)
=== License.pre
instance (x : LicenseIdentifier) : One True %v [("id", .licenseId), ("name", .licenseName)] (LicenseIdentifier.writeXml x) := by
  cases x <;> simp only [LicenseIdentifier.writeXml] <;> infer_instance
=== SpdxExpression
%34|instance (x : SpdxExpression) : Elem True %v "expression" .expression (SpdxExpression.writeXml x) := by
%34|  obtain ⟨bomRef, expression⟩ := x
%34|  unfold SpdxExpression.writeXml
%34|  cases bomRef with
%34|  | none => infer_instance
%34|  | some r =>
%34|    refine elem_of (xs := [.chars expression]) (by simp [writtenAll, written]) (.inl ⟨trivial, (.bomRef (by simp) (by decide) rfl)⟩) ?_
%34|    intro x hx n hn
%34|    rw [List.mem_singleton] at hx
%34|    subst hx
%34|    cases hn
%5|instance (x : SpdxExpression) : Elem True %v "expression" .expression (SpdxExpression.writeXml x) := by
%5|  unfold SpdxExpression.writeXml; infer_instance
=== Licenses
theorem licenses_tree (l : List LicenseChoice) : ∃ xs, writtenAll xs = l.flatMap (LicenseChoice.writeXml %v) ∧
    IsLoose True %v .licenses xs ∧ xs.length = l.length ∧ ((∃ e, .expression e ∈ l) → HasChild "expression" xs) := by
  induction l with
  | nil => exact ⟨[], rfl, (fun x h => by cases h), rfl, by rintro ⟨e, h⟩; cases h⟩
  | cons a l ih =>
    obtain ⟨xs, hw, hl, hn, hc⟩ := ih
    cases a with
    | license y =>
      have h : Carries True %v .licenses "license" (License.writeXml %v y) := inferInstance
      obtain ⟨x, hx, hwx, ht⟩ := (inferInstance : Elem True %v "license" .license (License.writeXml %v y)).ex
      refine ⟨x :: xs, by simp [writtenAll, hw, hwx, LicenseChoice.writeXml], ?_, by simp [hn], ?_⟩
      · intro z hz
        rcases List.mem_cons.mp hz with rfl | hz
        · exact IsItem.loose ⟨"license", .license, by decide, hx.name, ht⟩
        · exact hl z hz
      · rintro ⟨e, he⟩
        rcases List.mem_cons.mp he with he | he
        · cases he
        · obtain ⟨z, hz, hzn⟩ := hc ⟨e, he⟩
          exact ⟨z, List.mem_cons_of_mem _ hz, hzn⟩
    | expression y =>
      obtain ⟨x, hx, hwx, ht⟩ := (inferInstance : Elem True %v "expression" .expression (SpdxExpression.writeXml y)).ex
      refine ⟨x :: xs, by simp [writtenAll, hw, hwx, LicenseChoice.writeXml], ?_, by simp [hn], ?_⟩
      · intro z hz
        rcases List.mem_cons.mp hz with rfl | hz
        · exact IsItem.loose ⟨"expression", .expression, by decide, hx.name, ht⟩
        · exact hl z hz
      · rintro -
        exact ⟨x, List.mem_cons_self, hx.name⟩

instance (x : Licenses) : Elem True %v "licenses" .licenses (Licenses.writeXml %v x) := by
  unfold Licenses.writeXml writeList
  by_cases h : ∃ e, LicenseChoice.expression e ∈ x
  · match x, h with
    | [], h => obtain ⟨e, h⟩ := h; cases h
    | [.expression e], _ =>
      haveI : Kids %v .licenses [mayHave "expression" .expression] := ⟨_, rfl, List.mem_cons_of_mem _ (List.mem_singleton.mpr rfl)⟩
      simp only [List.flatMap_cons, List.flatMap_nil, LicenseChoice.writeXml, List.append_nil]
      infer_instance
    | [.license y], h => obtain ⟨e, h⟩ := h; simp at h
    | a :: b :: l, h =>
      obtain ⟨xs, hw, hl, hn, hc⟩ := licenses_tree (a :: b :: l)
      refine elem_of hw (.inl ⟨trivial, (.licenses (hc h) (by rw [hn]; simp))⟩) ?_
      intro z hz n hzn t' ht'
      obtain ⟨m, hm, hall⟩ := hl z hz
      simp only [Option.mem_def] at hzn
      rw [hm] at hzn
      cases hzn
      exact hall t' ht'
  · haveI : Kids %v .licenses [anyNumber "license" .license] := ⟨_, rfl, List.mem_cons_self⟩
    haveI : Any True %v [("license", .license)] (x.flatMap (LicenseChoice.writeXml %v)) := any_mem fun a ha => by
      cases a with
      | license y => simp only [LicenseChoice.writeXml]; infer_instance
      | expression y => exact absurd ⟨y, ha⟩ h
    infer_instance
=== VulnerabilityRating.pre
instance (tag : String) (x : F32) : Elem True %v tag .decimal (writeSimple tag (F32Format.display x)) := by
  cases h : x.isFinite with
  | true =>
    haveI : TextOk .decimal (F32Format.display x) := ⟨Decimals.decimal x h⟩
    infer_instance
  | false =>
    show Elem True %v tag .decimal (writeElem tag [] [.chars (F32Format.display x)])
    refine elem_of (attrs := []) (xs := [.chars (F32Format.display x)]) (by simp [writtenAll, written]) (.inl ⟨trivial, (.number (by decide) h)⟩) ?_
    intro x hx n hn
    rw [List.mem_singleton] at hx
    subst hx
    cases hn
=== DataGovernanceResponsibleParty
instance (tag : String) (x : DataGovernanceResponsibleParty) : Elem True %v tag .responsibleParty (DataGovernanceResponsibleParty.writeXml tag x) := by
  unfold DataGovernanceResponsibleParty.writeXml
  cases x <;> simp only [DataGovernanceResponsibleParty.writeInner] <;> infer_instance
=== Attachment
instance (tag : String) (x : Attachment) : Elem True %v tag .attachment (Attachment.writeXml tag x) := by
  obtain ⟨content, contentType, encoding⟩ := x
  unfold Attachment.writeXml
  cases contentType <;> cases encoding
  · infer_instance
  · infer_instance
  · infer_instance
  · refine elem_of (xs := [.chars content]) (by simp [writtenAll, written]) (.inl ⟨trivial, (.attachment rfl rfl)⟩) ?_
    intro x hx n hn
    rw [List.mem_singleton] at hx
    subst hx
    cases hn
=== Dataset
instance (x : Dataset) : Elem True %v "dataset" .componentData (Dataset.writeXml x) := by
  cases x with
  | component y => simp only [Dataset.writeXml]; infer_instance
  | reference r =>
    simp only [Dataset.writeXml]
    haveI : Carries True %v .componentData "ref" (writeSimple "ref" r) := carries_foreign (loose := false) writeSimple_one (by decide)
    exact elem_departs (n := "ref") inferInstance trivial (fun xs h => .dataset rfl h)
=== ServiceData
instance (x : ServiceData) : Elem True %v "dataflow" .dataflow (ServiceData.writeXml x) := by
  obtain ⟨name, description, classification, governance, source, destination⟩ := x
  unfold ServiceData.writeXml
  cases name <;> cases description
  · infer_instance
  · infer_instance
  · infer_instance
  · exact elem_own (l := [mustHave "classification" .classification, mayHave "governance" .governance, mayHave "source" .urls,
      mayHave "destination" .urls]) inferInstance (by decide) trivial (fun xs _ => .dataflow rfl rfl)
=== ServiceDataChoice
instance (x : ServiceDataChoice) : Elem True %v "data" .serviceData (ServiceDataChoice.writeXml %v x) := by
  unfold ServiceDataChoice.writeXml
  cases x with
  | classification l =>
    haveI : Kids %v .serviceData [anyNumber "classification" .classification] := ⟨_, rfl, List.mem_cons_self⟩
    simp only [ServiceDataChoice.writeInner]
    infer_instance
  | serviceData l =>
%5|    haveI : Kids %v .serviceData [(anyNumber "dataflow" .dataflow).from .v1_5] := ⟨_, rfl, List.mem_cons_of_mem _ (List.mem_singleton.mpr rfl)⟩
%34|    haveI : Kids %v .serviceData [anyNumber "classification" .classification] := ⟨_, rfl, List.mem_cons_self⟩
    simp only [ServiceDataChoice.writeInner, since15]
    infer_instance
=== Lifecycle
instance (x : Lifecycle) : Elem True %v "lifecycle" .lifecycle (Lifecycle.writeXml x) := by
  cases x with
  | phase p =>
    haveI : Kids %v .lifecycle [mustHave "phase" .string] := ⟨_, rfl, List.mem_cons_self⟩
    simp only [Lifecycle.writeXml]
    infer_instance
  | description d =>
    haveI : Kids %v .lifecycle [mustHave "name" .string, mayHave "description" .string] := ⟨_, rfl, List.mem_cons_of_mem _ (List.mem_singleton.mpr rfl)⟩
    simp only [Lifecycle.writeXml]
    infer_instance
=== Component.3
mutual
theorem component_all : ∀ (x : List Component), Component.converts13All x = true →
    Any True %v [("component", .component)] (Component.writeXmlAll %v x)
  | [], _ => by simp only [Component.writeXmlAll]; infer_instance
  | a :: x, h => by
    simp only [Component.converts13All, Bool.and_eq_true] at h
    have h1 := component_elem a h.1
    have h2 := component_all x h.2
    simp only [Component.writeXmlAll]
    infer_instance
termination_by structural x => x
theorem component_opt : ∀ (x : Option (List Component)) (tag : String), Component.converts13Opt x = true →
    Maybe True %v [(tag, .components)] (Component.writeXmlOpt %v tag x)
  | none, _, _ => by simp only [Component.writeXmlOpt]; infer_instance
  | some x, tag, h => by
    simp only [Component.converts13Opt] at h
    have h1 := component_all x h
    simp only [Component.writeXmlOpt]
    infer_instance
termination_by structural x => x
theorem pedigree_opt : ∀ (x : Option Pedigree), Pedigree.converts13Opt x = true →
    Maybe True %v [("pedigree", .pedigree)] (Pedigree.writeXmlOpt %v x)
  | none, _ => by simp only [Pedigree.writeXmlOpt]; infer_instance
  | some ⟨ancestors, descendants, variants, commits, patches, notes⟩, h => by
    simp only [Pedigree.converts13Opt, Bool.and_eq_true] at h
    have h1 := component_opt ancestors "ancestors" h.1.1
    have h2 := component_opt descendants "descendants" h.1.2
    have h3 := component_opt variants "variants" h.2
    simp only [Pedigree.writeXmlOpt, Pedigree.writeXml]
    infer_instance
termination_by structural x => x
theorem component_elem : ∀ (x : Component), x.converts13 = true →
    Elem True %v "component" .component (Component.writeXml %v x)
  | ⟨componentType, mimeType, bomRef, supplier, author, publisher, group, name, version, description, scope, hashes, licenses, copyright, cpe, purl, swid, modified, pedigree, externalReferences, properties, components, evidence, signature, modelCard, data⟩, h => by
    simp only [Component.converts13, Bool.and_eq_true] at h
    have h1 := pedigree_opt pedigree h.1.2
    have h2 := component_opt components "components" h.2
    obtain ⟨w, rfl⟩ := Option.isSome_iff_exists.mp h.1.1
    simp only [Component.writeXml, writeOpt_some]
    infer_instance
termination_by structural x => x
end
=== Component
mutual
theorem component_all : ∀ (x : List Component), Any True %v [("component", .component)] (Component.writeXmlAll %v x)
  | [] => by simp only [Component.writeXmlAll]; infer_instance
  | a :: x => by
    have h1 := component_elem a
    have h2 := component_all x
    simp only [Component.writeXmlAll]
    infer_instance
termination_by structural x => x
theorem component_opt : ∀ (x : Option (List Component)) (tag : String) (items : List (String × ElementType))
    [HasItem items tag .components], Maybe True %v items (Component.writeXmlOpt %v tag x)
  | none, _, _, _ => by simp only [Component.writeXmlOpt]; infer_instance
  | some x, tag, items, _ => by
    have h1 := component_all x
    simp only [Component.writeXmlOpt]
    infer_instance
termination_by structural x => x
theorem pedigree_opt : ∀ (x : Option Pedigree) (items : List (String × ElementType)) [HasItem items "pedigree" .pedigree],
    Maybe True %v items (Pedigree.writeXmlOpt %v x)
  | none, _, _ => by simp only [Pedigree.writeXmlOpt]; infer_instance
  | some ⟨ancestors, descendants, variants, commits, patches, notes⟩, items, _ => by
    have h1 := component_opt ancestors "ancestors" [("ancestors", .components)]
    have h2 := component_opt descendants "descendants" [("descendants", .components)]
    have h3 := component_opt variants "variants" [("variants", .components)]
    simp only [Pedigree.writeXmlOpt, Pedigree.writeXml]
    infer_instance
termination_by structural x => x
theorem component_elem : ∀ (x : Component), Elem True %v "component" .component (Component.writeXml %v x)
  | ⟨componentType, mimeType, bomRef, supplier, author, publisher, group, name, version, description, scope, hashes, licenses, copyright, cpe, purl, swid, modified, pedigree, externalReferences, properties, components, evidence, signature, modelCard, data⟩ => by
    have h1 := fun items [HasItem items "pedigree" .pedigree] => pedigree_opt pedigree items
    have h2 := fun items [HasItem items "components" .components] => component_opt components "components" items
    cases signature with
    | none =>
      simp only [Component.writeXml, since14, since15, writeOpt_none, List.append_nil, List.nil_append]
      infer_instance
    | some s =>
      haveI : Carries True %v .component "signature" (Signature.writeXml s) := carries_foreign (loose := false) Signature.xml_one (by decide)
      simp only [Component.writeXml]
      exact elem_departs (n := "signature") inferInstance trivial (fun xs h => .signature (by simp) (by decide) h)
termination_by structural x => x
end

instance (x : Component) : Elem True %v "component" .component (Component.writeXml %v x) := component_elem x
=== Pedigree

=== Service
mutual
theorem service_all : ∀ (x : List Service), Any True %v [("service", .service)] (Service.writeXmlAll %v x)
  | [] => by simp only [Service.writeXmlAll]; infer_instance
  | a :: x => by
    have h1 := service_elem a
    have h2 := service_all x
    simp only [Service.writeXmlAll]
    infer_instance
termination_by structural x => x
theorem service_opt : ∀ (x : Option (List Service)) (items : List (String × ElementType))
    [HasItem items "services" .services], Maybe True %v items (Service.writeXmlOpt %v "services" x)
  | none, _, _ => by simp only [Service.writeXmlOpt]; infer_instance
  | some x, items, _ => by
    have h1 := service_all x
    simp only [Service.writeXmlOpt]
    infer_instance
termination_by structural x => x
theorem service_elem : ∀ (x : Service), Elem True %v "service" .service (Service.writeXml %v x)
  | ⟨bomRef, provider, group, name, version, description, endpoints, authenticated, xTrustBoundary, data, licenses, externalReferences, properties, services, signature, trustZone⟩ => by
    have h1 := fun items [HasItem items "services" .services] => service_opt services items
%3|    simp only [Service.writeXml]
%3|    infer_instance
%45|    cases signature with
%45|    | none =>
%4|      simp only [Service.writeXml, since14, since15, writeOpt_none, List.append_nil, List.nil_append]
%4|      infer_instance
%5|      cases trustZone with
%5|      | none =>
%5|        simp only [Service.writeXml, since14, since15, writeOpt_none, List.append_nil, List.nil_append]
%5|        infer_instance
%5|      | some z =>
%5|        simp only [Service.writeXml, since14, since15, writeOpt_none, writeOpt_some, List.append_nil, List.nil_append]
%5|        exact elem_departs (n := "trustZone") inferInstance trivial (fun xs h => .trustZone rfl h)
%45|    | some s =>
%45|      haveI : Carries True %v .service "signature" (Signature.writeXml s) := carries_foreign (loose := false) Signature.xml_one (by decide)
%45|      simp only [Service.writeXml]
%45|      exact elem_departs (n := "signature") inferInstance trivial (fun xs h => .signature (by simp) (by decide) h)
termination_by structural x => x
end

instance (x : Service) : Elem True %v "service" .service (Service.writeXml %v x) := service_elem x
=== Tools
instance (x : Tools) : Elem True %v "tools" .tools (Tools.writeXml %v x) := by
  cases x with
  | list l =>
    haveI : Kids %v .tools [anyNumber "tool" .tool] := ⟨_, rfl, List.mem_cons_self⟩
    simp only [Tools.writeXml]
    infer_instance
%34|  | object s c =>
%34|    haveI : Kids %v .tools [anyNumber "tool" .tool] := ⟨_, rfl, List.mem_cons_self⟩
%34|    simp only [Tools.writeXml, since15]
%34|    infer_instance
%5|  | object s c =>
%5|    haveI : Kids %v .tools [(mayHave "components" .components).from .v1_5, (mayHave "services" .services).from .v1_5] :=
%5|      ⟨_, rfl, List.mem_cons_of_mem _ (List.mem_singleton.mpr rfl)⟩
%5|    cases s with
%5|    | none =>
%5|      simp only [Tools.writeXml, since15, writeOpt_none, List.nil_append]
%5|      infer_instance
%5|    | some s =>
%5|      cases c with
%5|      | none =>
%5|        simp only [Tools.writeXml, since15, writeOpt_none, List.append_nil]
%5|        infer_instance
%5|      | some c =>
%5|        simp only [Tools.writeXml, since15]
%5|        obtain ⟨xs, hw, hl, hc⟩ := (inferInstance : Carries True %v .tools "services" (writeOpt (writeList "services" (Service.writeXml %v)) (some s))).ex
%5|        obtain ⟨ys, hw', hl', hc'⟩ := (inferInstance : Carries True %v .tools "components" (writeOpt (writeList "components" (Component.writeXml %v)) (some c))).ex
%5|        refine elem_of (xs := xs ++ ys) (by rw [writtenAll_append, hw, hw']) (.inl ⟨trivial, (.tools rfl ?_ ?_)⟩) ?_
%5|        · obtain ⟨x, hx, hn⟩ := hc
%5|          exact ⟨x, List.mem_append_left _ hx, hn⟩
%5|        · obtain ⟨x, hx, hn⟩ := hc'
%5|          exact ⟨x, List.mem_append_right _ hx, hn⟩
%5|        · exact (hl.append hl').each
=== Metadata.3
theorem metadata_elem (x : Metadata) (h : ∀ c, x.component = some c → c.converts13 = true) :
    Elem True %v "metadata" .metadata (Metadata.writeXml %v x) := by
  haveI : Maybe True %v [("component", .component)] (writeOpt (Component.writeXml %v) x.component) :=
    maybe_some fun a e => by
      have := component_elem a (h a e)
      infer_instance
  unfold Metadata.writeXml; infer_instance
=== Metadata.5
instance (x : Metadata) : Elem True %v "metadata" .metadata (Metadata.writeXml %v x) := by
  unfold Metadata.writeXml
  cases h : x.lifecycles with
  | none =>
    simp only [since15, writeOpt_none, List.append_nil]
    infer_instance
  | some l => exact elem_departs (n := "lifecycles") inferInstance trivial (fun xs h => .lifecycles rfl h)
=== Vulnerability.5
instance (x : Vulnerability) : Elem True %v "vulnerability" .vulnerability (Vulnerability.writeXml %v x) := by
  unfold Vulnerability.writeXml
  cases h : x.workaround with
  | none =>
    simp only [since15, writeOpt_none, List.append_nil]
    infer_instance
  | some l => exact elem_departs (n := "workaround") inferInstance trivial (fun xs h => .workaround rfl h)
=== ResourceReference
instance (tag : String) (x : ResourceReference) : Elem True %v tag .resourceReference (ResourceReference.writeXml tag x) := by
  unfold ResourceReference.writeXml
  cases x with
  | ref y => simp only [ResourceReference.writeInner]; infer_instance
  | externalReference y =>
    simp only [ResourceReference.writeInner]
    haveI : Carries True %v .resourceReference "reference" (ExternalReference.writeXml y) := carries_foreign (loose := false) ExternalReference.xml_one (by decide)
    exact elem_departs (n := "reference") inferInstance trivial (fun xs h => .resource rfl h)
=== Input.pre
instance (x : EnvironmentVar) : One True %v [("environmentVar", .property), ("value", .string)] (EnvironmentVar.writeXml x) := by
  cases x <;> simp only [EnvironmentVar.writeXml] <;> infer_instance

instance (x : RequiredInputField) : One True %v [("resource", .resourceReference), ("parameters", .parameters), ("environmentVars", .environmentVars), ("data", .attachment)] (RequiredInputField.writeXml x) := by
  cases x <;> simp only [RequiredInputField.writeXml] <;> infer_instance

instance (x : RequiredOutputField) : One True %v [("resource", .resourceReference), ("environmentVars", .environmentVars), ("data", .attachment)] (RequiredOutputField.writeXml x) := by
  cases x <;> simp only [RequiredOutputField.writeXml] <;> infer_instance
=== Step
instance (x : Step) : Elem True %v "step" .step (Step.writeXml x) := by
  unfold Step.writeXml
  cases hc : x.commands with
  | some l => exact elem_departs (n := "commands") inferInstance trivial (fun xs h => .step rfl (.inl h))
  | none =>
    simp only [writeOpt_none, List.nil_append]
    cases hd : x.description with
    | none =>
      simp only [writeOpt_none, List.nil_append]
      infer_instance
    | some d =>
      cases hn : x.name with
      | none =>
        simp only [writeOpt_none, List.nil_append]
        infer_instance
      | some n =>
        obtain ⟨xs, hw, hl, hc⟩ := (inferInstance : Carries True %v .step "description" (writeOpt (writeSimple "description") (some d))).ex
        obtain ⟨ys, hw', hl', hc'⟩ := (inferInstance : Carries True %v .step "name" (writeOpt (writeSimple "name") (some n) ++ writeOpt (writeList "properties" Property.writeXml) x.properties)).ex
        refine elem_of (xs := xs ++ ys) (by rw [writtenAll_append, hw, hw']) (.inl ⟨trivial, (.step rfl (.inr ⟨?_, ?_⟩))⟩) ?_
        · obtain ⟨x, hx, hn⟩ := hc
          exact ⟨x, List.mem_append_left _ hx, hn⟩
        · obtain ⟨x, hx, hn⟩ := hc'
          exact ⟨x, List.mem_append_right _ hx, hn⟩
        · exact (hl.append hl').each
=== WorkflowTask
instance (x : WorkflowTask) : Elem True %v "task" .task (WorkflowTask.writeXml x) := by
  unfold WorkflowTask.writeXml
  refine elem_own (l := [mustHave "uid" .string, mayHave "name" .string, mayHave "description" .string,
    mayHave "resourceReferences" .resourceReferences, mayHave "trigger" .trigger, mayHave "steps" .steps, mayHave "inputs"
    .inputs, mayHave "outputs" .outputs, mayHave "timeStart" .string, mayHave "timeEnd" .string,
    mayHave "workspaces" .workspaces, mayHave "runtimeTopology" .dependencies, mayHave "properties" .properties])
    inferInstance (by decide) trivial (fun xs h => .task rfl ?_)
  rintro ⟨x, hx, hn⟩
  obtain ⟨n, hm, e⟩ := h x hx
  rw [hn] at e
  cases e
  exact absurd hm (by decide)
=== Workflow.pre
instance (l : List TaskType) : Elem True %v "taskTypes" .taskTypes (writeList "taskTypes" (fun e => writeSimple "taskType" (TaskType.display e)) l) := by
  cases l with
  | nil =>
    exact elem_of (xs := []) rfl (.inl ⟨trivial, (.taskTypes rfl)⟩) (fun x hx => by cases hx)
  | cons a l =>
    have : Row True %v [atLeastOne "taskType" .string] ((a :: l).flatMap fun e => writeSimple "taskType" (TaskType.display e)) := by
      rw [List.flatMap_cons]
      exact row_least
    exact elem_list
=== Bom.3
theorem bom_root (x : Bom) (h : x.converts %v = true) : ∃ root, IsRoot %v root ∧ written root = Bom.writeXml %v x ∧
    Throughout (Meets True %v) %v .bom root := by
  obtain ⟨version, serialNumber, metadata, components, services, externalReferences, dependencies, compositions, properties, vulnerabilities, signature, annotations, formulation, specVersion⟩ := x
  simp only [Bom.converts, Bool.and_eq_true] at h
  haveI : Maybe True %v [("metadata", .metadata)] (writeOpt (Metadata.writeXml %v) metadata) :=
    maybe_some fun m e => by
      have := metadata_elem m (fun c hc => by
        have := h.1
        rw [e] at this
        simp only [hc] at this
        exact this)
      infer_instance
  haveI : Maybe True %v [("components", .components)] (writeOpt (writeList "components" (Component.writeXml %v)) components) :=
    maybe_some fun l e => by
      have h2 := h.2
      rw [e] at h2
      simp only [Component.converts13Opt] at h2
      have h3 := component_all l h2
      rw [component_writeAll] at h3
      infer_instance
  have : Elem True %v "bom" .bom (Bom.writeXml %v ⟨version, serialNumber, metadata, components, services, externalReferences, dependencies, compositions, properties, vulnerabilities, signature, annotations, formulation, specVersion⟩) := by
    unfold Bom.writeXml; infer_instance
  exact this.root
=== Bom
theorem bom_root (x : Bom) : ∃ root, IsRoot %v root ∧ written root = Bom.writeXml %v x ∧
    Throughout (Meets True %v) %v .bom root := by
  have : Elem True %v "bom" .bom (Bom.writeXml %v x) := by
    unfold Bom.writeXml; infer_instance
  exact this.root
