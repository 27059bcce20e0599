import Verif.Props.Complete
import Verif.Lemmas.Keeps.V1_3
import Verif.Lemmas.Keeps.V1_4
import Verif.Lemmas.Keeps.V1_5
import Verif.Lemmas.LosslessEval
import Verif.Model.DecEq

/-!
# C74: reading a JSON document loses nothing that is in it
-/

namespace Cdx.Props

open Spec

/-- C74 (partial): a document that conforms to the schema of its version and avoids what `Readable`,
`Json.Settled` and `Lossless` list is read, and what is written for it is the same JSON value as the
document, up to the order of members. The schema of version 1.3 lets every object have members it does
not name, which are lost, so documents of this version must not have any. `C73_unreadable`, `C74_lost`
and `C74_changed` show that each item of those lists is needed. -/
theorem C74_kept_partial [F32Format] [ReadLimit] {F : Formats} {v : SpecVersion} {j : Json}
    (hl : LabelledAs v j) (hc : Conforms F v j) (hu : j.Unique) (hd : Within ReadLimit.limit j)
    (hr : Everywhere Readable j) (hk : Everywhere Lossless j) (hs : j.Settled)
    (h3 : v = .v1_3 → StrictlyConforms F v j) (hv : v = .v1_5 → Has "version" j) :
    ∃ b j', Bom.parseJson j = .ok b ∧ b.outputJson v = .ok j' ∧ Same j' j := by
  have hr' := reordered_toValue (G := []) hu (ranked_none j)
  obtain ⟨o, e, hm⟩ := labelled_value.mp hl
  have hc1 : Clean ReadLimit.limit j.toValue :=
    ⟨⟨hr'.unique, hr.reordered (fun _ _ => readable_reordered) hr', hd.reordered hr'⟩,
      hk.reordered (fun _ _ => lossless_reordered) hr', hs.toValue⟩
  have hc2 : Conforms F v j.toValue := hc.reordered hr'
  have hv' : v = .v1_5 → Has "version" j.toValue := fun e => hr'.has.mp (hv e)
  have h3' : v = .v1_3 → StrictlyConforms F v j.toValue := fun e => (h3 e).reordered hr'
  rw [e] at hc1 hc2 hv' h3'
  have hspec : ∀ p, Json.obj o = .obj p → ∀ x, ("specVersion", x) ∈ p → x = .str (SpecVersion.display v) := by
    intro p e x hx
    cases e
    rw [nodup_unique hc1.sane.nodup hx (lookup_some_mem hm)]
    cases v <;> rfl
  have key : Keeps (Bom.ofJson v) (Bom.toJson v) (.obj o) := by
    cases v with
    | v1_3 => exact v13k_root_Bom (valid_unref (h3' rfl) rfl) hc1 hspec
    | v1_4 => exact v14k_root_Bom (valid_unref hc2 rfl) hc1 hspec
    | v1_5 => exact v15k_root_Bom (valid_unref hc2 rfl) hc1 (hv' rfl) hspec
  obtain ⟨-, b, hb, hsame⟩ := key
  have hconv : b.converts v = true := by
    cases v with
    | v1_3 => exact (Bom.reads (Nat.le_refl _) _ _ hc1.settled hb).1.converts
    | v1_4 => rfl
    | v1_5 => rfl
  rw [← e] at hb hsame
  exact ⟨b, _, by rw [C35_selects hl]; exact hb, if_pos hconv,
    hsame.reordered (Reordered.refl_of_unique (Bom.toJson_unique v b)) hr'.symm⟩

attribute [local instance] Example.f32 Example.limit in
/-- Non-vacuity: a document with something of nearly everything meets the hypotheses of
`C74_kept_partial` in all versions. -/
example (v : SpecVersion) : LabelledAs v (plainBom.toJson v) ∧
    Conforms (fun f s => Witness.formats f s = true) v (plainBom.toJson v) ∧ (plainBom.toJson v).Unique ∧
    Within ReadLimit.limit (plainBom.toJson v) ∧ Everywhere Readable (plainBom.toJson v) ∧
    Everywhere Lossless (plainBom.toJson v) ∧ (plainBom.toJson v).Settled ∧
    (v = .v1_3 → StrictlyConforms (fun f s => Witness.formats f s = true) v (plainBom.toJson v)) ∧
    Has "version" (plainBom.toJson v) := by
  have h1 : labelEval v (plainBom.toJson v) = true := by cases v <;> decide +kernel
  have h2 : (Elem.bom (plainBom.at v)).allInside (Elem.ruleEval Witness.formats v) 20 = true := by
    cases v <;> decide +kernel
  have ho : plainBom.outputJson v = .ok (plainBom.toJson v) := by cases v <;> rfl
  have h4 := saneEval_sound 127 _ (by cases v <;> decide +kernel : saneEval 127 (plainBom.toJson v) = true)
  have h5 : hasEval "version" (plainBom.toJson v) = true := by cases v <;> decide +kernel
  have h6 : losslessEval 30 (plainBom.toJson v) = true := by
    cases v <;> decide +kernel
  have h7 : settledBy 30 (plainBom.toJson v) = true := by cases v <;> decide +kernel
  refine ⟨labelEval_sound h1, C66_conforms_partial (sound_of_eval h2) ho, h4.unique, h4.within, h4.plain,
    losslessEval_sound _ _ h6, settledBy_sound _ _ h7, ?_, hasEval_iff.mp h5⟩
  rintro rfl
  have h8 : (Schema.ref "root").eval (fun f s => some (Witness.formats f s))
      (strictContext (fun _ _ => True) .v1_3).defs 60 (plainBom.toJson .v1_3) = some true := by decide +kernel
  refine (Schema.eval_sound (strictContext _ .v1_3) (fun f s => ?_) 60 _ _).1 h8
  cases h : Witness.formats f s
  · exact ⟨nofun, fun _ (h' : Witness.formats f s = true) => nomatch h.symm.trans h'⟩
  · exact ⟨fun _ => h, nofun⟩

namespace Lost

open Unreadable

def service (l : List (String × Json)) : Json :=
  Unreadable.document "1.5" [("services", .arr [.obj ([("name", .str "s")] ++ l)])]

def modelCard (l : List (String × Json)) : Json := component "1.5" [("modelCard", .obj l)]

def workspace (l : List (String × Json)) : Json :=
  Unreadable.document "1.5" [("formulation", .arr [.obj [("workflows", .arr [.obj
    [("bom-ref", .str "w"), ("uid", .str "u"), ("taskTypes", .arr [.str "build"]), ("workspaces", .arr [.obj
      [("bom-ref", .str "s"), ("uid", .str "u"), ("volume", .obj l)]])]])]])]

def signer (l : List (String × Json)) : Json :=
  .obj ([("algorithm", .str "RS256"), ("value", .str "x")] ++ l)

/-- Pairs of documents that differ in one member, which the reader of the version ignores although
the schema has it. -/
def list : List (SpecVersion × Json × Json) :=
  [ (.v1_4, Unreadable.document "1.4" [("$schema", .str "http://cyclonedx.org/schema/bom-1.4.schema.json")], Unreadable.document "1.4" []),
    -- release notes of components and services
    (.v1_4, component "1.4" [("releaseNotes", .obj [("type", .str "major")])], component "1.4" []),
    (.v1_5, component "1.5" [("releaseNotes", .obj [("type", .str "major")])], component "1.5" []),
    (.v1_5, service [("releaseNotes", .obj [("type", .str "major")])], service []),
    -- the response of an analysis, which is looked for under `responses`
    (.v1_4, vulnerability "1.4" [("analysis", .obj [("response", .arr [.str "update"])])],
      vulnerability "1.4" [("analysis", .obj [])]),
    -- identifiers that are looked for under `bomRef`
    (.v1_5, Unreadable.document "1.5" [("metadata", .obj [("authors", .arr [.obj [("bom-ref", .str "r")]])])],
      Unreadable.document "1.5" [("metadata", .obj [("authors", .arr [.obj []])])]),
    (.v1_5, component "1.5" [("supplier", .obj [("bom-ref", .str "r")])], component "1.5" [("supplier", .obj [])]),
    (.v1_5, component "1.5" [("evidence", .obj [("occurrences", .arr [.obj [("location", .str "l"), ("bom-ref", .str "r")]])])],
      component "1.5" [("evidence", .obj [("occurrences", .arr [.obj [("location", .str "l")]])])]),
    (.v1_5, modelCard [("bom-ref", .str "r")], modelCard []),
    (.v1_5, Unreadable.document "1.5" [("compositions", .arr [.obj [("aggregate", .str "complete"), ("bom-ref", .str "r")]])],
      Unreadable.document "1.5" [("compositions", .arr [.obj [("aggregate", .str "complete")]])]),
    (.v1_5, component "1.5" [("licenses", .arr [.obj [("license", .obj [("name", .str "l"), ("bom-ref", .str "r")])]])],
      component "1.5" [("licenses", .arr [.obj [("license", .obj [("name", .str "l")])]])]),
    (.v1_5, component "1.5" [("licenses", .arr [.obj [("expression", .str "e"), ("bom-ref", .str "r")]])],
      component "1.5" [("licenses", .arr [.obj [("expression", .str "e")]])]),
    (.v1_5, dataset (.obj [("type", .str "dataset"), ("bom-ref", .str "r")]), dataset (.obj [("type", .str "dataset")])),
    -- the confidence interval of a metric, which is looked for under `confidence_interval`
    (.v1_5, modelCard [("quantitativeAnalysis", .obj [("performanceMetrics", .arr [.obj [("confidenceInterval", .obj [])]])])],
      modelCard [("quantitativeAnalysis", .obj [("performanceMetrics", .arr [.obj []])])]),
    -- the content of considerations
    (.v1_5, modelCard [("considerations", .obj [("users", .arr [.str "u"])])], modelCard [("considerations", .obj [])]),
    -- the size of a volume, which is looked for under `size_allocated`, and whether there was a mode
    (.v1_5, workspace [("mode", .str "block"), ("sizeAllocated", .str "1")], workspace [("mode", .str "block")]),
    (.v1_5, workspace [], workspace [("mode", .str "filesystem")]),
    -- what else belongs to a signature
    (.v1_4, component "1.4" [("signature", signer [("keyId", .str "k")])], component "1.4" [("signature", signer [])]),
    -- what 1.5 says about the data of a service
    (.v1_5, service [("data", .arr [.obj [("flow", .str "inbound"), ("classification", .str "c"), ("name", .str "n")]])],
      service [("data", .arr [.obj [("flow", .str "inbound"), ("classification", .str "c")]])]),
    -- whether the list of dependencies is empty or missing
    (.v1_3, Unreadable.document "1.3" [("dependencies", .arr [.obj [("ref", .str "r"), ("dependsOn", .arr [])]])],
      Unreadable.document "1.3" [("dependencies", .arr [.obj [("ref", .str "r")]])]) ]

/-- What has to be known about formats: the name of the algorithm is not a URI, and `u` is a
reference. -/
structure Agrees (F : Formats) : Prop where
  uri : ¬ F "uri" "RS256"
  reference : F "iri-reference" "u"

example : Agrees fun f _ => f ≠ "uri" := ⟨fun h => h rfl, by decide⟩

def known (f s : String) : Option Bool :=
  if f = "uri" ∧ s = "RS256" then some false else if f = "iri-reference" ∧ s = "u" then some true else none

/-- The answer of the evaluator for a whole document. -/
def conformsEval (v : SpecVersion) (j : Json) : Option Bool :=
  (Schema.ref "root").eval known (schemaContext (fun _ _ => True) v).defs 60 j

theorem conforms_of_eval {F : Formats} (hF : Agrees F) {v : SpecVersion} {j : Json}
    (h : conformsEval v j = some true) : Conforms F v j := by
  refine (Schema.eval_sound (schemaContext F v) (fun f s => ?_) 60 _ j).1 h
  unfold known
  split
  · rename_i e
    obtain ⟨rfl, rfl⟩ := e
    exact ⟨nofun, fun _ => hF.uri⟩
  · split
    · rename_i e
      obtain ⟨rfl, rfl⟩ := e
      exact ⟨fun _ => hF.reference, nofun⟩
    · exact ⟨nofun, nofun⟩

/-- Documents that come out changed, although nothing that belongs to the BOM is lost on reading, or
that have something the schema does not name. -/
def changed : List (SpecVersion × Json) :=
  [ -- objects that the schema leaves open
    (.v1_3, Unreadable.document "1.3" [("comment", .str "c")]),
    (.v1_3, component "1.3" [("pedigree", .obj [("comment", .str "c")])]),
    (.v1_4, component "1.4" [("properties", .arr [.obj
      [("name", .str "n"), ("value", .str "v"), ("comment", .str "c")]])]),
    (.v1_5, Unreadable.document "1.5" [("formulation", .arr [.obj [("workflows", .arr [.obj
      [("bom-ref", .str "w"), ("uid", .str "u"), ("taskTypes", .arr [.str "build"]), ("inputs", .arr [.obj
        [("environmentVars", .arr [.obj [("name", .str "n"), ("value", .str "v"), ("comment", .str "c")]])]])]])]])]),
    (.v1_5, vulnerability "1.5" [("proofOfConcept", .obj [("comment", .str "c")])]),
    -- `null` for each missing member of licensing
    (.v1_5, component "1.5" [("licenses", .arr [.obj [("license", .obj [("name", .str "l"), ("licensing", .obj [])])]])]),
    -- an empty list of dependencies
    (.v1_4, Unreadable.document "1.4" [("dependencies", .arr [.obj [("ref", .str "r"), ("dependsOn", .arr [])]])]),
    -- a type of external references
    (.v1_5, codified),
    -- a number that is not one of the values of `f32`
    (.v1_4, vulnerability "1.4" [("ratings", .arr [.obj [("score", .nat (2 ^ 24 + 1))]])]) ]

end Lost

attribute [local instance] Example.f32 Example.limit in
/-- C74 refuted: the two documents of each pair both conform to the schema, are not the same JSON
value, and are read as the same BOM. -/
theorem C74_lost : ∀ w ∈ Lost.list,
    LabelledAs w.1 w.2.1 ∧ (∀ F, Lost.Agrees F → Conforms F w.1 w.2.1 ∧ Conforms F w.1 w.2.2) ∧
    ¬ Same w.2.1 w.2.2 ∧ ∃ b, Bom.parseJson w.2.1 = .ok b ∧ Bom.parseJson w.2.2 = .ok b := by
  have key : (Lost.list.all fun w =>
      labelEval w.1 w.2.1 && (Lost.conformsEval w.1 w.2.1 == some true) && (Lost.conformsEval w.1 w.2.2 == some true) &&
        (sameEval 30 w.2.1 w.2.2 == some false) &&
        (match Bom.parseJson w.2.1, Bom.parseJson w.2.2 with | .ok b, .ok c => decide (b = c) | _, _ => false)) = true := by
    decide +kernel
  intro w hw
  have h := List.all_eq_true.mp key w hw
  simp only [Bool.and_eq_true, beq_iff_eq] at h
  obtain ⟨⟨⟨⟨h1, h2⟩, h3⟩, h4⟩, h5⟩ := h
  refine ⟨labelEval_sound h1, fun F hF => ⟨Lost.conforms_of_eval hF h2, Lost.conforms_of_eval hF h3⟩,
    (sameEval_sound 30 _ _).2 h4, ?_⟩
  cases e : Bom.parseJson w.2.1 with
  | error _ => rw [e] at h5; cases h5
  | ok b =>
    cases e' : Bom.parseJson w.2.2 with
    | error _ => rw [e, e'] at h5; cases h5
    | ok c =>
      rw [e, e'] at h5
      exact ⟨b, rfl, by rw [of_decide_eq_true h5]⟩

attribute [local instance] Example.f32 Example.limit in
/-- C74 refuted: each document conforms to the schema, has the shape and satisfies the conditions of
`C73_conforming_read_partial`, is read, and is written as something else. The first documents of the
pairs of `C74_lost` are among them. -/
theorem C74_changed : ∀ w ∈ Lost.changed ++ Lost.list.map (fun w => (w.1, w.2.1)),
    LabelledAs w.1 w.2 ∧ (∀ F, Lost.Agrees F → Conforms F w.1 w.2) ∧ w.2.Unique ∧ Within 20 w.2 ∧
    Everywhere Readable w.2 ∧ Has "version" w.2 ∧
    ∃ b j', Bom.parseJson w.2 = .ok b ∧ b.outputJson w.1 = .ok j' ∧ ¬ Same j' w.2 := by
  have key : ((Lost.changed ++ Lost.list.map (fun w => (w.1, w.2.1))).all fun w =>
      labelEval w.1 w.2 && (Lost.conformsEval w.1 w.2 == some true) && saneEval 20 w.2 && hasEval "version" w.2 &&
        (match Bom.parseJson w.2 with
          | .ok b => match b.outputJson w.1 with
            | .ok j' => sameEval 30 j' w.2 == some false
            | _ => false
          | _ => false)) = true := by
    decide +kernel
  intro w hw
  have h := List.all_eq_true.mp key w hw
  simp only [Bool.and_eq_true, beq_iff_eq] at h
  obtain ⟨⟨⟨⟨h1, h2⟩, h3⟩, h4⟩, h5⟩ := h
  have t := saneEval_sound _ _ h3
  refine ⟨labelEval_sound h1, fun F hF => Lost.conforms_of_eval hF h2, t.unique, t.within, t.plain,
    hasEval_iff.mp h4, ?_⟩
  cases e : Bom.parseJson w.2 with
  | error _ => rw [e] at h5; cases h5
  | ok b =>
    rw [e] at h5
    dsimp only at h5
    cases e' : b.outputJson w.1 with
    | error _ => rw [e'] at h5; cases h5
    | ok j' =>
      rw [e'] at h5
      exact ⟨b, j', rfl, e', (sameEval_sound 30 _ _).2 (beq_iff_eq.mp h5)⟩

end Cdx.Props
