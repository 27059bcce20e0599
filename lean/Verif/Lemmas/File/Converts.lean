import Verif.Lemmas.File.Convert

set_option linter.unusedVariables false
set_option linter.unusedSimpArgs false
set_option linter.unusedSectionVars false

/-!
# When the conversion to the structures of the files succeeds
-/

namespace Cdx

/-- The conversion succeeds exactly if `b`; otherwise it says that a version is missing. -/
def Gives {α : Type} (r : Except String α) (b : Bool) : Prop :=
  (b = true ∧ ∃ a, r = .ok a) ∨ (b = false ∧ r = .error "version missing")

theorem Gives.ok {α : Type} {a : α} : Gives (.ok a) true := .inl ⟨rfl, a, rfl⟩

theorem Gives.bind {α β : Type} {r : Except String α} {f : α → Except String β} {b c : Bool}
    (h : Gives r b) (hf : ∀ a, Gives (f a) c) : Gives (r >>= f) (b && c) := by
  rcases h with ⟨rfl, a, rfl⟩ | ⟨rfl, rfl⟩
  · exact hf a
  · exact .inr ⟨rfl, rfl⟩

theorem Gives.map {α β : Type} {r : Except String α} {f : α → β} {b : Bool} (h : Gives r b) : Gives (r.map f) b := by
  rcases h with ⟨rfl, a, rfl⟩ | ⟨rfl, rfl⟩
  · exact .inl ⟨rfl, _, rfl⟩
  · exact .inr ⟨rfl, rfl⟩

theorem Gives.vec {α β : Type} {f : α → Except String β} {c : α → Bool} (hf : ∀ a, Gives (f a) (c a)) :
    ∀ l : List α, Gives (tryVec f l) (l.all c)
  | [] => .ok
  | a :: l => by
    have := (hf a).bind (f := fun b => tryVec f l >>= fun bs => .ok (b :: bs)) fun b =>
      (Gives.vec hf l).bind (c := true) fun bs => .ok
    rwa [Bool.and_true] at this

theorem Gives.optional {α β : Type} {f : α → Except String β} {c : α → Bool} (hf : ∀ a, Gives (f a) (c a)) :
    ∀ o : Option α, Gives (tryOptional f o) (o.all c)
  | none => .ok
  | some a => (hf a).map

theorem Gives.cast {α : Type} {r : Except String α} {b c : Bool} (h : Gives r b) (e : b = c) : Gives r c := e ▸ h

theorem all_true {α : Type} : ∀ l : List α, l.all (fun _ => true) = true
  | [] => rfl
  | _ :: l => by rw [List.all_cons, all_true l]; rfl

theorem optAll_true {α : Type} : ∀ o : Option α, o.all (fun _ => true) = true
  | none => rfl
  | some _ => rfl

theorem File.Version.gives (v : SpecVersion) (x : Option String) :
    Gives (File.Version.ofModel v x) (since14 v true x.isSome) := by
  cases v with
  | v1_3 =>
    cases x with
    | none => exact .inr ⟨rfl, rfl⟩
    | some s => exact .ok
  | v1_4 => exact .ok
  | v1_5 => exact .ok

theorem since14_and (v : SpecVersion) (a b : Bool) :
    (since14 v true a && since14 v true b) = since14 v true (a && b) := by cases v <;> rfl

mutual

theorem Component.givesOpt (v : SpecVersion) : ∀ x : Option (List Component),
    Gives (Component.toFileOpt v x) (since14 v true (Component.converts13Opt x))
  | none => by
    rw [Component.toFileOpt, Component.converts13Opt]
    exact Gives.ok.cast (by cases v <;> rfl)
  | some l => by
    rw [Component.toFileOpt, Component.converts13Opt]
    exact (Component.givesAll v l).map
termination_by structural x => x

theorem Component.givesAll (v : SpecVersion) : ∀ x : List Component,
    Gives (Component.toFileAll v x) (since14 v true (Component.converts13All x))
  | [] => by
    rw [Component.toFileAll, Component.converts13All]
    exact Gives.ok.cast (by cases v <;> rfl)
  | x :: l => by
    rw [Component.toFileAll, Component.converts13All]
    refine Gives.cast ((Component.gives v x).bind fun _ =>
      (Component.givesAll v l).bind (c := true) fun _ => .ok) ?_
    rw [Bool.and_true, since14_and]
termination_by structural x => x

theorem Pedigree.givesOpt (v : SpecVersion) : ∀ x : Option Pedigree,
    Gives (Pedigree.toFileOpt v x) (since14 v true (Pedigree.converts13Opt x))
  | none => by
    rw [Pedigree.toFileOpt, Pedigree.converts13Opt]
    exact Gives.ok.cast (by cases v <;> rfl)
  | some x => by
    rw [Pedigree.toFileOpt]
    exact (Pedigree.gives v x).map
termination_by structural x => x

theorem Pedigree.gives (v : SpecVersion) : ∀ x : Pedigree,
    Gives (Pedigree.toFile v x) (since14 v true (Pedigree.converts13Opt (some x)))
  | ⟨ancestors, descendants, variants, commits, patches, notes⟩ => by
    rw [Pedigree.toFile, Pedigree.converts13Opt]
    refine Gives.cast ((Component.givesOpt v ancestors).bind fun _ =>
      (Component.givesOpt v descendants).bind fun _ =>
      (Component.givesOpt v variants).bind (c := true) fun _ => .ok) ?_
    rw [Bool.and_true, since14_and, since14_and, Bool.and_assoc]
termination_by structural x => x

theorem Component.gives (v : SpecVersion) : ∀ x : Component,
    Gives (Component.toFile v x) (since14 v true (Component.converts13 x))
  | ⟨componentType, mimeType, bomRef, supplier, author, publisher, group, name, version, description, scope, hashes, licenses, copyright, cpe, purl, swid, modified, pedigree, externalReferences, properties, components, evidence, signature, modelCard, data⟩ => by
    rw [Component.toFile, Component.converts13]
    refine Gives.cast ((File.Version.gives v version).bind fun _ =>
      (Pedigree.givesOpt v pedigree).bind fun _ =>
      (Component.givesOpt v components).bind (c := true) fun _ => .ok) ?_
    rw [Bool.and_true, since14_and, since14_and, Bool.and_assoc]
termination_by structural x => x

end

theorem Component.converts13All_eq : ∀ l, Component.converts13All l = l.all Component.converts13
  | [] => by rw [Component.converts13All]; rfl
  | x :: l => by rw [Component.converts13All, Component.converts13All_eq l, List.all_cons]

theorem Component.converts13Opt_eq (o : Option (List Component)) :
    Component.converts13Opt o = o.all (List.all · Component.converts13) := by
  cases o with
  | none => rw [Component.converts13Opt]; rfl
  | some l => rw [Component.converts13Opt, Component.converts13All_eq]; rfl

theorem since14_all (v : SpecVersion) (c : Component → Bool) (o : Option (List Component)) :
    (o.all fun l => l.all fun x => since14 v true (c x)) = since14 v true (o.all (List.all · c)) := by
  cases v with
  | v1_3 => rfl
  | v1_4 => exact (congrArg (Option.all · o) (funext fun l => all_true l)).trans (optAll_true o)
  | v1_5 => exact (congrArg (Option.all · o) (funext fun l => all_true l)).trans (optAll_true o)

theorem Component.gives_list (v : SpecVersion) (o : Option (List Component)) :
    Gives (tryOptional (tryVec (Component.toFile v)) o) (since14 v true (Component.converts13Opt o)) :=
  (Gives.optional (Gives.vec (Component.gives v)) o).cast (by rw [Component.converts13Opt_eq, since14_all])

theorem Tools.gives (v : SpecVersion) (x : Tools) : Gives (Tools.toFile v x) true := by
  cases x with
  | list l => exact .ok
  | object s c =>
    cases v with
    | v1_3 => exact .ok
    | v1_4 => exact .ok
    | v1_5 => exact (Component.gives_list .v1_5 c).bind (c := true) fun _ => .ok

theorem Metadata.gives (v : SpecVersion) (x : Metadata) :
    Gives (Metadata.toFile v x) (since14 v true (x.component.all Component.converts13)) := by
  refine Gives.cast ((Gives.optional (Tools.gives v) x.tools).bind fun _ =>
    (Gives.optional (Component.gives v) x.component).bind (c := true) fun _ => .ok) ?_
  rw [optAll_true, Bool.true_and, Bool.and_true]
  cases v with
  | v1_3 => rfl
  | v1_4 => exact optAll_true _
  | v1_5 => exact optAll_true _

theorem Vulnerability.gives (v : SpecVersion) (x : Vulnerability) : Gives (Vulnerability.toFile v x) true := by
  refine Gives.cast ((Gives.optional (Tools.gives v) x.tools).bind (c := true) fun _ => .ok) ?_
  rw [optAll_true, Bool.true_and]

theorem Annotator.gives (x : Annotator) : Gives (Annotator.toFile x) true := by
  cases x with
  | organization o => exact .ok
  | individual o => exact .ok
  | component c => exact (Component.gives .v1_5 c).map
  | service s => exact .ok

theorem Annotation.gives (x : Annotation) : Gives (Annotation.toFile x) true :=
  (Annotator.gives x.annotator).bind (c := true) fun _ => .ok

theorem Formula.gives (x : Formula) : Gives (Formula.toFile x) true :=
  (Component.gives_list .v1_5 x.components).bind (c := true) fun _ => .ok

theorem Gives.always {α β : Type} {f : α → Except String β} (hf : ∀ a, Gives (f a) true) (o : Option (List α)) :
    Gives (tryOptional (tryVec f) o) true :=
  (Gives.optional (Gives.vec hf) o).cast
    ((congrArg (Option.all · o) (funext fun l => all_true l)).trans (optAll_true o))

theorem Since14.gives {α : Type} {r : Except String α} (v : SpecVersion) (h : Gives r true) :
    Gives (Since14.tryPut v r) true := by
  cases v with
  | v1_3 => exact .ok
  | v1_4 => exact h
  | v1_5 => exact h

theorem Since15.gives {α : Type} {r : Except String α} (v : SpecVersion) (h : Gives r true) :
    Gives (Since15.tryPut v r) true := by
  cases v with
  | v1_3 => exact .ok
  | v1_4 => exact .ok
  | v1_5 => exact h

theorem Bom.gives (v : SpecVersion) (x : Bom) : Gives (Bom.toFile v x) (x.converts v) := by
  refine Gives.cast ((Gives.optional (Metadata.gives v) x.metadata).bind fun _ =>
    (Component.gives_list v x.components).bind fun _ =>
    (Since14.gives v (Gives.always (Vulnerability.gives v) x.vulnerabilities)).bind fun _ =>
    (Since15.gives v (Gives.always Annotation.gives x.annotations)).bind fun _ =>
    (Since15.gives v (Gives.always Formula.gives x.formulation)).bind (c := true) fun _ => .ok) ?_
  simp only [Bool.and_true]
  unfold Bom.converts
  cases v with
  | v1_3 =>
    cases hm : x.metadata with
    | none => rfl
    | some m =>
      cases hc : m.component with
      | none => simp [hc, since14]
      | some c => simp [hc, since14]
  | v1_4 => simp [since14, optAll_true]
  | v1_5 => simp [since14, optAll_true]

theorem Gives.isOk {α : Type} {r : Except String α} {b : Bool} (h : Gives r b) : r.isOk = b := by
  rcases h with ⟨rfl, a, rfl⟩ | ⟨rfl, rfl⟩ <;> rfl

end Cdx
