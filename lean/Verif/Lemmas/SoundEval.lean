import Verif.Lemmas.SchemaEval
import Verif.Spec.Conforms

/-!
# Evaluating what the schemas ask of elements
-/

namespace Cdx

open Spec

set_option linter.unusedVariables false

/-- The condition on what is there, if it is there. -/
def ifSome {α : Type} (o : Option α) (p : α → Bool) : Bool :=
  match o with
  | none => true
  | some x => p x

theorem ifSome_iff {α : Type} {o : Option α} {p : α → Bool} :
    ifSome o p = true ↔ ∀ x, o = some x → p x = true := by
  cases o <;> simp [ifSome]

/-- Distinct as JSON values. -/
def distinctEval {α : Type} (f : α → Json) (l : Option (List α)) : Bool :=
  ifSome l fun m => differEval 60 (m.map f) == some true

theorem distinctEval_sound {α : Type} {f : α → Json} {l : Option (List α)}
    (h : distinctEval f l = true) : WrittenDistinct f l := by
  intro m hm
  have := ifSome_iff.mp h m hm
  exact List.pairwise_map.mp ((differEval_sound 60 _).1 (by simpa using this))

theorem of_dec {p : Prop} {i : Decidable p} (h : @decide p i = true) : p := of_decide_eq_true h

/-- `RefOk`. -/
def refEval (v : SpecVersion) (r : String) : Bool := decide (v = .v1_5 → r ≠ "")

theorem refEval_sound {v : SpecVersion} {r : String} (h : refEval v r = true) : RefOk v r :=
  (of_dec h :)

/-- All of a list. -/
def refsEval (v : SpecVersion) (l : List String) : Bool := decide l.Nodup && l.all (refEval v)

theorem refsEval_sound {v : SpecVersion} {l : List String} (h : refsEval v l = true) :
    l.Nodup ∧ ∀ r ∈ l, RefOk v r := by
  simp only [refsEval, Bool.and_eq_true, decide_eq_true_eq, List.all_eq_true] at h
  exact ⟨h.1, fun r hr => refEval_sound (h.2 r hr)⟩

/-- `DependencyOk`. -/
def dependencyEval (v : SpecVersion) (d : Dependency) : Bool :=
  refEval v d.dependencyRef && refsEval v d.dependencies

theorem dependencyEval_sound {v : SpecVersion} {d : Dependency} (h : dependencyEval v d = true) :
    DependencyOk v d := by
  simp only [dependencyEval, Bool.and_eq_true] at h
  exact ⟨refEval_sound h.1, refsEval_sound h.2⟩

/-- `ReferenceTypeIn`. -/
def referenceTypeEval (v : SpecVersion) (t : ExternalReferenceType) : Bool :=
  decide (t ∈ [.vcs, .issueTracker, .website, .advisories, .bom, .mailingList, .social, .chat,
    .documentation, .support, .distribution, .license, .buildMeta, .buildSystem, .other]) ||
  decide (v ≠ .v1_3 ∧ t = .releaseNotes) ||
  decide (v = .v1_5 ∧ t ≠ .condifiedInfrastructure) && match t with
    | .unknownExternalReferenceType _ => false
    | _ => true

theorem referenceTypeEval_sound {v : SpecVersion} {t : ExternalReferenceType}
    (h : referenceTypeEval v t = true) : ReferenceTypeIn v t := by
  unfold referenceTypeEval at h
  simp only [Bool.or_eq_true, Bool.and_eq_true, decide_eq_true_eq] at h
  rcases h with (h | h) | ⟨⟨h1, h2⟩, h3⟩
  · exact .inl h
  · exact .inr (.inl h)
  · refine .inr (.inr ⟨h1, h2, ?_⟩)
    rintro s rfl
    cases h3

/-- `AggregateNamed`. -/
def aggregateEval (v : SpecVersion) (a : AggregateType) : Bool :=
  decide (a ∈ [.complete, .incomplete, .incompleteFirstPartyOnly, .incompleteThirdPartyOnly, .unknown,
    .notSpecified]) ||
  decide (v = .v1_5) && match a with
    | .unknownAggregateType _ => false
    | _ => true

theorem aggregateEval_sound {v : SpecVersion} {a : AggregateType} (h : aggregateEval v a = true) :
    AggregateNamed v a := by
  unfold aggregateEval at h
  simp only [Bool.or_eq_true, Bool.and_eq_true, decide_eq_true_eq] at h
  rcases h with h | ⟨h1, h3⟩
  · exact .inl h
  · refine .inr ⟨h1, ?_⟩
    rintro s rfl
    cases h3

/-- `schemaRule`, where the formats are given by a function. -/
def Spec.Elem.ruleEval (G : String → String → Bool) (v : SpecVersion) : Elem → Bool
  | .uri x => G "iri-reference" x
  | .dateTime x => G "date-time" x
  | .mimeType x => patternMime.isMatch x
  | .serialNumber x => patternSerial.isMatch x
  | .hashValue x => patternHash.isMatch x
  | .attachmentEncoding x => x == "base64"
  | .confidence x => x.isFinite && decide (0 ≤ numberOf x) && decide (numberOf x ≤ 1)
  | .spdxId x => SchemaSpdx.ids.contains x
  | .spdxExpression x => decide (v ≠ .v1_3 → x.bomRef = none)
  | .refUri x => G "iri-reference" x.display
  | .classification x => decide (x ∈ [.application, .framework, .library, .container, .operatingSystem,
      .device, .firmware, .file] ∨ v = .v1_5 ∧ x ∈ [.platform, .deviceDriver, .machineLearningModel, .data])
  | .aggregateType x => aggregateEval v x
  | .scoreMethod x => decide (x ∈ [.cvssv2, .cvssv3, .cvssv31, .owasp] ∨ v = .v1_5 ∧ x ∈ [.cvssv4, .ssvc])
  | .externalReferenceType x => referenceTypeEval v x
  | .algorithm (.unknown _) => false
  | .algorithm x => !G "uri" x.display
  | .scope (.unknownScope _) => false
  | .hashAlgorithm (.unknownHashAlgorithm _) => false
  | .identityField (.unknown _) => false
  | .licenseType (.unknown _) => false
  | .approachType (.unknown _) => false
  | .componentDataType (.unknown _) => false
  | .issueClassification (.unknownIssueClassification _) => false
  | .patchClassification (.unknownPatchClassification _) => false
  | .dataFlowType (.unknownDataFlow _) => false
  | .impactAnalysisState (.undefinedImpactAnalysisState _) => false
  | .impactAnalysisJustification (.undefinedImpactAnalysisJustification _) => false
  | .severity (.undefinedSeverity _) => false
  | .status (.undefinedStatus _) => false
  | .taskType (.unknown _) => false
  | .outputType (.unknown _) => false
  | .triggerType (.unknownType _) => false
  | .accessMode (.unknownAccessMode _) => false
  | .volumeMode (.unknownMode _) => false
  | .versionRange x => match x with
    | .version s => decide (s ≠ "" ∧ s.length ≤ 1024)
    | .range s => decide (s ≠ "" ∧ s.length ≤ 1024)
    | .undefinedVersionRange _ => false
  | .attachedText x => ifSome x.encoding fun e => decide (e = .base64)
  | .organizationalContact x =>
    decide (v = .v1_3) || decide (x.bomRef = none) && ifSome x.email (G "idn-email")
  | .organizationalEntity x => decide (v ≠ .v1_3 → x.bomRef = none)
  | .licensing x => x.altIds.isSome && x.licensor.isSome && x.licensee.isSome && x.purchaser.isSome &&
      x.purchaseOrder.isSome && x.licenseTypes.isSome && x.lastRenewal.isSome && x.expiration.isSome
  | .license x => decide (v = .v1_5 → x.bomRef = none)
  | .licenses x => decide (v ≠ .v1_5) || (x.all fun | .license _ => true | .expression _ => false) ||
      match x with
      | [.expression _] => true
      | _ => false
  | .identifiableAction x => ifSome x.email (G "idn-email")
  | .signature (.single _) => true
  | .signature _ => false
  | .dataGovernanceResponsibleParty _ => false
  | .componentData x => decide (x.bomRef = none ∧ x.sensitiveData = none)
  | .dataset (.component _) => true
  | .dataset _ => false
  | .quantitativeAnalysis x => ifSome x.performanceMetrics fun l => l.all fun m => decide (m.confidenceInterval = none)
  | .modelCard x => decide (x.bomRef = none)
  | .occurrence x => decide (x.bomRef = none)
  | .identity x => (ifSome x.methods fun l => l.all fun m => techniques.contains m.technique) &&
      ifSome x.tools (refsEval v)
  | .component x => decide (v = .v1_3 → x.version ≠ none) && decide (v = .v1_5 → x.data = none) &&
      ifSome x.bomRef (refEval v) && distinctEval (Component.toJson v) x.components
  | .service x => ifSome x.bomRef (refEval v) && distinctEval (Service.toJson v) x.services
  | .tools (.list _) => true
  | .tools (.object s c) => distinctEval (Service.toJson v) s && distinctEval (Component.toJson v) c
  | .metadata x => ifSome x.lifecycles fun l => l.all fun
    | .phase (.unknown _) => false
    | _ => true
  | .composition x => decide (v = .v1_5 → x.bomRef = none) && ifSome x.assemblies (refsEval v) &&
      ifSome x.dependencies (fun l => decide l.Nodup) && ifSome x.vulnerabilities (fun l => decide l.Nodup)
  | .vulnerabilityRating x => ifSome x.score F32.isFinite
  | .vulnerabilityAnalysis x => decide (x.responses = none)
  | .vulnerabilityTarget x => refEval v x.bomRef
  | .vulnerability x => ifSome x.bomRef (refEval v) &&
      ifSome x.cwes (fun l => l.all fun n => decide (1 ≤ n)) &&
      distinctEval VulnerabilityTarget.toJson x.vulnerabilityTargets
  | .annotation x => ifSome x.bomRef (refEval v) && refsEval v x.subjects
  | .resourceReference (.ref r) => refEval v r
  | .input x => match x.required with
    | .parameters l => distinctEval Parameter.toJson (some l)
    | .environmentVars l => distinctEval EnvironmentVar.toJson (some l)
    | _ => true
  | .output x => match x.required with
    | .environmentVars l => distinctEval EnvironmentVar.toJson (some l)
    | _ => true
  | .trigger x => refEval v x.bomRef && distinctEval ResourceReference.toJson x.resourceReferences &&
      distinctEval Condition.toJson x.conditions && distinctEval Input.toJson x.inputs &&
      distinctEval Output.toJson x.outputs
  | .volume x => decide (x.sizeAllocated = none)
  | .workspace x => refEval v x.bomRef && distinctEval ResourceReference.toJson x.resourceReferences
  | .workflowTask x => refEval v x.bomRef && distinctEval ResourceReference.toJson x.resourceReferences &&
      distinctEval Step.toJson x.steps && distinctEval Input.toJson x.inputs &&
      distinctEval Output.toJson x.outputs && distinctEval Workspace.toJson x.workspaces &&
      distinctEval Dependency.toJson x.runtimeTopology &&
      ifSome x.runtimeTopology fun l => l.all (dependencyEval v)
  | .workflow x => refEval v x.bomRef && distinctEval ResourceReference.toJson x.resourceReferences &&
      distinctEval WorkflowTask.toJson x.tasks && distinctEval Dependency.toJson x.taskDependencies &&
      distinctEval Step.toJson x.steps && distinctEval Input.toJson x.inputs &&
      distinctEval Output.toJson x.outputs && distinctEval Workspace.toJson x.workspaces &&
      distinctEval Dependency.toJson x.runtimeTopology &&
      ifSome x.taskDependencies (fun l => l.all (dependencyEval v)) &&
      ifSome x.runtimeTopology (fun l => l.all (dependencyEval v))
  | .formula x => ifSome x.bomRef (refEval v) && distinctEval (Component.toJson v) x.components &&
      distinctEval (Service.toJson v) x.services && distinctEval Workflow.toJson x.workflows
  | .bom x => decide (v = .v1_5 → 1 ≤ x.version) && distinctEval (Component.toJson v) x.components &&
      distinctEval (Service.toJson v) x.services && distinctEval Dependency.toJson x.dependencies &&
      ifSome x.dependencies (fun l => l.all (dependencyEval v)) &&
      distinctEval (Composition.toJson v) x.compositions &&
      distinctEval (Vulnerability.toJson v) x.vulnerabilities &&
      distinctEval (Annotation.toJson v) x.annotations &&
      distinctEval (Formula.toJson v) x.formulation
  | _ => true

theorem of_ifSome {α : Type} {o : Option α} {p : α → Bool} {P : α → Prop} (hp : ∀ x, p x = true → P x)
    (h : ifSome o p = true) : ∀ x, o = some x → P x := fun x hx => hp x (ifSome_iff.mp h x hx)

theorem of_all {α : Type} {l : List α} {p : α → Bool} {P : α → Prop} (hp : ∀ x, p x = true → P x)
    (h : l.all p = true) : ∀ x ∈ l, P x := fun x hx => hp x (List.all_eq_true.mp h x hx)

set_option maxHeartbeats 1000000 in
theorem Spec.Elem.ruleEval_sound {G : String → String → Bool} {v : SpecVersion} (e : Elem)
    (h : e.ruleEval G v = true) : e.schemaRule (fun f s => G f s = true) v := by
  cases e
  case scope =>
    rintro s rfl
    cases h
  case hashAlgorithm =>
    rintro s rfl
    cases h
  case identityField =>
    rintro s rfl
    cases h
  case licenseType =>
    rintro s rfl
    cases h
  case approachType =>
    rintro s rfl
    cases h
  case componentDataType =>
    rintro s rfl
    cases h
  case issueClassification =>
    rintro s rfl
    cases h
  case patchClassification =>
    rintro s rfl
    cases h
  case dataFlowType =>
    rintro s rfl
    cases h
  case impactAnalysisState =>
    rintro s rfl
    cases h
  case impactAnalysisJustification =>
    rintro s rfl
    cases h
  case severity =>
    rintro s rfl
    cases h
  case status =>
    rintro s rfl
    cases h
  case taskType =>
    rintro s rfl
    cases h
  case outputType =>
    rintro s rfl
    cases h
  case triggerType =>
    rintro s rfl
    cases h
  case accessMode =>
    rintro s rfl
    cases h
  case volumeMode =>
    rintro s rfl
    cases h
  case uri =>
    exact h
  case dateTime =>
    exact h
  case mimeType =>
    exact h
  case serialNumber =>
    exact h
  case hashValue =>
    exact h
  case refUri =>
    exact h
  case attachmentEncoding =>
    exact beq_iff_eq.mp h
  case confidence =>
    simp only [Elem.ruleEval, Bool.and_eq_true, decide_eq_true_eq] at h
    exact ⟨h.1.1, h.1.2, h.2⟩
  case spdxId =>
    exact List.contains_iff_mem.mp h
  case spdxExpression =>
    exact (of_dec h :)
  case classification =>
    exact (of_dec h :)
  case scoreMethod =>
    exact (of_dec h :)
  case organizationalEntity =>
    exact (of_dec h :)
  case license =>
    exact (of_dec h :)
  case componentData =>
    exact (of_dec h :)
  case modelCard =>
    exact (of_dec h :)
  case occurrence =>
    exact (of_dec h :)
  case vulnerabilityAnalysis =>
    exact (of_dec h :)
  case volume =>
    exact (of_dec h :)
  case aggregateType =>
    exact aggregateEval_sound h
  case externalReferenceType =>
    exact referenceTypeEval_sound h
  case algorithm =>
    rename_i x
    cases x <;> simp_all [Elem.ruleEval, Elem.schemaRule]
  case versionRange =>
    rename_i x
    cases x <;> simp_all [Elem.ruleEval, Elem.schemaRule]
  case attachedText =>
    exact of_ifSome (fun _ h => of_decide_eq_true h) h
  case organizationalContact =>
    simp only [Elem.ruleEval, Bool.or_eq_true, Bool.and_eq_true, decide_eq_true_eq] at h
    intro hv
    rcases h with h | h
    · exact absurd h hv
    · exact ⟨h.1, ifSome_iff.mp h.2⟩
  case licensing =>
    simp only [Elem.ruleEval, Bool.and_eq_true] at h
    simp only [Elem.schemaRule]
    refine ⟨?_, ?_, ?_, ?_, ?_, ?_, ?_, ?_⟩ <;> (intro e; simp [e] at h)
  case licenses =>
    simp only [Elem.ruleEval, Bool.or_eq_true, decide_eq_true_eq] at h
    intro hv
    rcases h with (h | h) | h
    · exact absurd hv h
    · refine .inl (of_all ?_ h)
      intro x hx
      cases x with
      | license l => exact ⟨l, rfl⟩
      | expression _ => cases hx
    · split at h
      · exact .inr ⟨_, rfl⟩
      · cases h
  case identifiableAction =>
    exact ifSome_iff.mp h
  case signature =>
    rename_i x
    cases x <;> simp_all [Elem.ruleEval, Elem.schemaRule]
  case dataGovernanceResponsibleParty =>
    cases h
  case dataset =>
    rename_i x
    cases x <;> simp_all [Elem.ruleEval, Elem.schemaRule]
  case quantitativeAnalysis =>
    exact of_ifSome (fun _ h => of_all (fun _ h => of_decide_eq_true h) h) h
  case identity =>
    simp only [Elem.ruleEval, Bool.and_eq_true] at h
    exact ⟨of_ifSome (fun _ h => of_all (fun _ h => List.contains_iff_mem.mp h) h) h.1,
      of_ifSome (fun _ h => refsEval_sound h) h.2⟩
  case component =>
    simp only [Elem.ruleEval, Bool.and_eq_true] at h
    exact ⟨of_decide_eq_true h.1.1.1, of_decide_eq_true h.1.1.2, of_ifSome (fun _ h => refEval_sound h) h.1.2, distinctEval_sound h.2⟩
  case service =>
    simp only [Elem.ruleEval, Bool.and_eq_true] at h
    exact ⟨of_ifSome (fun _ h => refEval_sound h) h.1, distinctEval_sound h.2⟩
  case tools =>
    rename_i x
    cases x with
    | list l => exact True.intro
    | object s c =>
      simp only [Elem.ruleEval, Bool.and_eq_true] at h
      exact ⟨distinctEval_sound h.1, distinctEval_sound h.2⟩
  case metadata =>
    intro l hl p s hp e
    have := List.all_eq_true.mp (ifSome_iff.mp h l hl) _ hp
    subst e
    cases this
  case composition =>
    simp only [Elem.ruleEval, Bool.and_eq_true] at h
    exact ⟨of_decide_eq_true h.1.1.1, of_ifSome (fun _ h => refsEval_sound h) h.1.1.2, of_ifSome (fun _ h => of_decide_eq_true h) h.1.2, of_ifSome (fun _ h => of_decide_eq_true h) h.2⟩
  case vulnerabilityRating =>
    exact ifSome_iff.mp h
  case vulnerabilityTarget =>
    exact refEval_sound h
  case vulnerability =>
    simp only [Elem.ruleEval, Bool.and_eq_true] at h
    exact ⟨of_ifSome (fun _ h => refEval_sound h) h.1.1, of_ifSome (fun _ h => of_all (fun _ h => of_decide_eq_true h) h) h.1.2, distinctEval_sound h.2⟩
  case annotation =>
    simp only [Elem.ruleEval, Bool.and_eq_true] at h
    exact ⟨of_ifSome (fun _ h => refEval_sound h) h.1, refsEval_sound h.2⟩
  case resourceReference =>
    rintro r rfl
    exact refEval_sound h
  case input =>
    rename_i x
    simp only [Elem.ruleEval, Elem.schemaRule] at h ⊢
    split <;> simp_all only []
    all_goals exact distinctEval_sound h
  case output =>
    rename_i x
    simp only [Elem.ruleEval, Elem.schemaRule] at h ⊢
    split <;> simp_all only []
    all_goals exact distinctEval_sound h
  case trigger =>
    simp only [Elem.ruleEval, Bool.and_eq_true] at h
    exact ⟨refEval_sound h.1.1.1.1, distinctEval_sound h.1.1.1.2, distinctEval_sound h.1.1.2, distinctEval_sound h.1.2, distinctEval_sound h.2⟩
  case workspace =>
    simp only [Elem.ruleEval, Bool.and_eq_true] at h
    exact ⟨refEval_sound h.1, distinctEval_sound h.2⟩
  case workflowTask =>
    simp only [Elem.ruleEval, Bool.and_eq_true] at h
    exact ⟨refEval_sound h.1.1.1.1.1.1.1, distinctEval_sound h.1.1.1.1.1.1.2, distinctEval_sound h.1.1.1.1.1.2, distinctEval_sound h.1.1.1.1.2, distinctEval_sound h.1.1.1.2, distinctEval_sound h.1.1.2, distinctEval_sound h.1.2, of_ifSome (fun _ h => of_all (fun _ h => dependencyEval_sound h) h) h.2⟩
  case workflow =>
    simp only [Elem.ruleEval, Bool.and_eq_true] at h
    exact ⟨refEval_sound h.1.1.1.1.1.1.1.1.1.1, distinctEval_sound h.1.1.1.1.1.1.1.1.1.2, distinctEval_sound h.1.1.1.1.1.1.1.1.2, distinctEval_sound h.1.1.1.1.1.1.1.2, distinctEval_sound h.1.1.1.1.1.1.2, distinctEval_sound h.1.1.1.1.1.2, distinctEval_sound h.1.1.1.1.2, distinctEval_sound h.1.1.1.2, distinctEval_sound h.1.1.2, of_ifSome (fun _ h => of_all (fun _ h => dependencyEval_sound h) h) h.1.2, of_ifSome (fun _ h => of_all (fun _ h => dependencyEval_sound h) h) h.2⟩
  case formula =>
    simp only [Elem.ruleEval, Bool.and_eq_true] at h
    exact ⟨of_ifSome (fun _ h => refEval_sound h) h.1.1.1, distinctEval_sound h.1.1.2, distinctEval_sound h.1.2, distinctEval_sound h.2⟩
  case bom =>
    simp only [Elem.ruleEval, Bool.and_eq_true] at h
    exact ⟨of_decide_eq_true h.1.1.1.1.1.1.1.1, distinctEval_sound h.1.1.1.1.1.1.1.2, distinctEval_sound h.1.1.1.1.1.1.2, distinctEval_sound h.1.1.1.1.1.2, of_ifSome (fun _ h => of_all (fun _ h => dependencyEval_sound h) h) h.1.1.1.1.2, distinctEval_sound h.1.1.1.2, distinctEval_sound h.1.1.2, distinctEval_sound h.1.2, distinctEval_sound h.2⟩
  all_goals exact True.intro

/-- All elements inside an element satisfy a condition; `false` also when the fuel ends. -/
def Spec.Elem.allInside (p : Elem → Bool) : Nat → Elem → Bool
  | 0, _ => false
  | n + 1, e => p e && e.parts.all (allInside p n)

theorem Spec.Elem.allInside_sound {p : Elem → Bool} {n : Nat} {e : Elem} (h : e.allInside p n = true)
    {f : Elem} (hi : Inside Elem.parts e f) : p f = true := by
  induction hi generalizing n with
  | refl e =>
    cases n with
    | zero => cases h
    | succ n =>
      simp only [allInside, Bool.and_eq_true] at h
      exact h.1
  | step hb _ ih =>
    cases n with
    | zero => cases h
    | succ n =>
      simp only [allInside, Bool.and_eq_true, List.all_eq_true] at h
      exact ih (h.2 _ hb)

/-- `Sound` can be computed. -/
theorem sound_of_eval {G : String → String → Bool} {v : SpecVersion} {e : Elem} {n : Nat}
    (h : e.allInside (Elem.ruleEval G v) n = true) : e.Sound (fun f s => G f s = true) v :=
  fun _ hp => Elem.ruleEval_sound _ (Elem.allInside_sound h hp)

end Cdx
