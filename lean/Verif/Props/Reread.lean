import Verif.Lemmas.Settled
import Verif.Props.Documents
import Verif.Lemmas.ValueSchema

/-!
# C68: what was read from JSON is written so that it is read as the same
-/

namespace Cdx.Props

section
variable [F32Format] [ReadLimit] {b : Bom} {j : Json} {w : SpecVersion}

/-- C68 (partial): a document that was read from JSON can be written as JSON, in its own version and
in every later one, and reading what was written gives the same document, with the version it was
written in. `Json.Settled` excludes documents for which this fails: see the counterexamples below. -/
theorem C68_reread_partial (hj : j.Settled) (h : Bom.parseJson j = .ok b)
    (hw : w = b.specVersion ∨ w = .v1_5 ∨ b.specVersion = .v1_3) :
    ∃ j', b.outputJson w = .ok j' ∧ Bom.parseJson j' = .ok { b with specVersion := w } := by
  rw [C35_selects (C35_labels h)] at h
  have hu : b.specVersion.ord ≤ w.ord := by
    generalize b.specVersion = v at hw
    cases v <;> cases w <;> first | decide | (rcases hw with h | h | h <;> cases h)
  obtain ⟨h1, h2⟩ := Bom.reads hu j.toValue b hj.toValue h
  obtain ⟨j', h3, h4, -⟩ := C44_json_partial h1
  exact ⟨j', h3, h2 ▸ h4⟩

/-- C68 (partial): in particular, nothing changes in its own version, however often this is done:
what is written the second time is what was written the first time. -/
theorem C68_fixpoint_partial (hj : j.Settled) (h : Bom.parseJson j = .ok b) :
    ∃ j', b.outputJson b.specVersion = .ok j' ∧ Bom.parseJson j' = .ok b := by
  obtain ⟨j', h1, h2⟩ := C68_reread_partial hj h (.inl rfl)
  exact ⟨j', h1, h2⟩

end

/-! ### A document that is settled -/

/-- Computes `Json.Settled` for documents without numbers other than natural numbers. -/
def settledBy [F32Format] : Nat → Json → Bool
  | 0, _ => false
  | _ + 1, .null => true
  | _ + 1, .bool _ => true
  | _ + 1, .nat n => (F32Format.ofNat n).isFinite
  | _ + 1, .float x => x.isFinite
  | _ + 1, .other => true
  | _ + 1, .str _ => true
  | n + 1, .arr l => l.all (settledBy n)
  | n + 1, .obj l => l.all fun m => settledBy n m.2 &&
      match m.2 with
      | .str s => (m.1 != "type" || s != "codified-infrastructure") &&
          (m.1 != "aggregate" || s != "incomplete_first_party_propprietary_only") &&
          (m.1 != "field" || keptIdentityFields.contains s)
      | _ => true

theorem settledBy_sound [F32Format] : ∀ (n : Nat) (j : Json), settledBy n j = true → j.Settled
  | 0, _, h => nomatch h
  | _ + 1, .null, _ => .null
  | _ + 1, .bool _, _ => .bool
  | _ + 1, .nat _, h => .nat h
  | _ + 1, .float _, h => .float h
  | _ + 1, .other, _ => .other
  | _ + 1, .str _, _ => .str
  | n + 1, .arr l, h => .arr fun j hj => settledBy_sound n j (List.all_eq_true.mp h j hj)
  | n + 1, .obj l, h => by
    have h := List.all_eq_true.mp h
    refine .obj (fun m hm => ?_) fun m hm =>
      settledBy_sound n m.2 (Bool.and_eq_true _ _ ▸ h m hm).1
    have hm := (Bool.and_eq_true _ _ ▸ h m hm).2
    split at hm
    · rename_i s hs
      simp only [Bool.and_eq_true, Bool.or_eq_true, bne_iff_ne, List.contains_iff_mem] at hm
      refine ⟨fun e e' => ?_, fun e e' => ?_, fun e t e' => ?_⟩
      · rw [hs] at e'
        cases e'
        exact (hm.1.1.resolve_left (not_not_intro e)) rfl
      · rw [hs] at e'
        cases e'
        exact (hm.1.2.resolve_left (not_not_intro e)) rfl
      · rw [hs] at e'
        cases e'
        exact hm.2.resolve_left (not_not_intro e)
    · rename_i hs
      exact ⟨fun _ e => hs _ e, fun _ e => hs _ e, fun _ s e => absurd e (hs s)⟩

attribute [local instance] Example.f32 Example.limit in
/-- A document of every version with components, services, licenses and vulnerabilities is settled,
and can be read. -/
example : ∀ v : SpecVersion, (Example.bom.toJson v).Settled ∧ ∃ b, Bom.parseJson (Example.bom.toJson v) = .ok b :=
  fun v => ⟨settledBy_sound 20 _ (by cases v <;> decide +kernel), by cases v <;> exact ⟨_, rfl⟩⟩

/-! ### What is not kept -/

/-- A document of version 1.5 with some members. -/
def document15 (l : List (String × Json)) : Json :=
  .obj ([("bomFormat", .str "CycloneDX"), ("specVersion", .str "1.5"), ("version", .nat 1)] ++ l)

/-- A document with an external reference of type `codified-infrastructure`. -/
def codified : Json :=
  document15 [("externalReferences", .arr [.obj [("type", .str "codified-infrastructure"), ("url", .str "u")]])]

/-- The type `codified-infrastructure` of external references, which the schema has, is read, but
written under another name, and then read as an unknown type. -/
theorem C68_codified_lost [F32Format] [ReadLimit] :
    ∃ b j' b', Bom.parseJson codified = .ok b ∧ b.outputJson .v1_5 = .ok j' ∧
      Bom.parseJson j' = .ok b' ∧ b' ≠ b :=
  ⟨_, _, _, rfl, rfl, rfl, fun h => nomatch congrArg Bom.externalReferences h⟩

/-- A document with a composition whose `aggregate` is misspelled. -/
def misspelled : Json :=
  document15 [("compositions", .arr [.obj [("aggregate", .str "incomplete_first_party_propprietary_only")]])]

/-- A misspelled `aggregate` is read as the correct one, which is written but not read. -/
theorem C68_aggregate_lost [F32Format] [ReadLimit] :
    ∃ b j' b', Bom.parseJson misspelled = .ok b ∧ b.outputJson .v1_5 = .ok j' ∧
      Bom.parseJson j' = .ok b' ∧ b' ≠ b :=
  ⟨_, _, _, rfl, rfl, rfl, fun h => nomatch congrArg Bom.compositions h⟩

/-- A document with a component with evidence on its identity. -/
def withIdentity (l : List (String × Json)) : Json :=
  document15 [("components", .arr [.obj [("type", .str "library"), ("name", .str "n"),
    ("evidence", .obj [("identity", .obj l)])]])]

/-- The fields in the evidence on the identity of components. -/
def identityFields (b : Bom) : List (Option (Option IdentityField)) :=
  (b.components.getD []).map fun c => c.evidence.map fun e => e.identity.map (·.field)

/-- The name of an unknown field in evidence on the identity of a component is lost. -/
theorem C68_field_lost [F32Format] (n : Nat) :
    let _ : ReadLimit := ⟨n + 1⟩
    ∃ b j' b', Bom.parseJson (withIdentity [("field", .str "f")]) = .ok b ∧ b.outputJson .v1_5 = .ok j' ∧
      Bom.parseJson j' = .ok b' ∧ b' ≠ b :=
  ⟨_, _, _, rfl, rfl, rfl, fun h => absurd (congrArg identityFields h) (of_decide_eq_true rfl)⟩

/-- The number infinity, which a JSON number that is too large for `f32` is read as. -/
def infinity : F32 := 0x7f800000

/-- A confidence that is too large for `f32` is read, but then written as `null`, which cannot be
read. -/
theorem C68_infinity_unreadable [F32Format] (n : Nat) :
    let _ : ReadLimit := ⟨n + 1⟩
    ∃ b j' e, Bom.parseJson (withIdentity [("field", .str "name"), ("methods",
        .arr [.obj [("technique", .str "t"), ("confidence", .float infinity)]])]) = .ok b ∧
      b.outputJson .v1_5 = .ok j' ∧ Bom.parseJson j' = .error e :=
  ⟨_, _, _, rfl, rfl, rfl⟩

end Cdx.Props
