import Verif.Lemmas.Reads.V1_3
import Verif.Lemmas.Reads.V1_4
import Verif.Lemmas.Reads.V1_5
import Verif.Lemmas.ReadableEval
import Verif.Props.Schema
import Verif.Props.Reread

/-!
# C73: every JSON document that conforms to the schema of its version can be read
-/

namespace Cdx.Props

open Spec

/-- C73 (partial): a document that is labelled with a version, conforms to the schema of that version,
and gives no member name twice can be read, if it is not nested too deep and avoids what `Readable`
lists. `C73_unreadable` shows that each item of that list makes documents unreadable. -/
theorem C73_conforming_read_partial [F32Format] [ReadLimit] {F : Formats} {v : SpecVersion} {j : Json}
    (hl : LabelledAs v j) (hc : Conforms F v j) (hu : j.Unique) (hd : Within ReadLimit.limit j)
    (hr : Everywhere Readable j) (hv : v = .v1_5 → Has "version" j) :
    ∃ b, Bom.parseJson j = .ok b ∧ b.specVersion = v := by
  have hr' := reordered_toValue (G := []) hu (ranked_none j)
  obtain ⟨o, e, hm⟩ := labelled_value.mp hl
  have hs : Sane ReadLimit.limit j.toValue := ⟨hr'.unique, hr.reordered (fun _ _ => readable_reordered) hr', hd.reordered hr'⟩
  have hc' : Conforms F v j.toValue := hc.reordered hr'
  have hv' : v = .v1_5 → Has "version" j.toValue := fun e => hr'.has.mp (hv e)
  rw [e] at hs hc' hv'
  have hspec : ∀ p, Json.obj o = .obj p → ∀ x, ("specVersion", x) ∈ p → CanRead SpecVersion.ofJson x := by
    intro p e x hx
    cases e
    rw [nodup_unique hs.nodup hx (lookup_some_mem hm)]
    cases v <;> exact ⟨_, rfl⟩
  have key : CanRead (Bom.ofJson v) (.obj o) := by
    cases v with
    | v1_3 => exact v13_root_Bom (valid_unref hc' rfl) hs hspec
    | v1_4 => exact v14_root_Bom (valid_unref hc' rfl) hs hspec
    | v1_5 => exact v15_root_Bom (valid_unref hc' rfl) hs (hv' rfl) hspec
  obtain ⟨b, hb⟩ := key
  have hp : Bom.parseJson j = .ok b := by
    rw [C35_selects hl, e]
    exact hb
  refine ⟨b, hp, ?_⟩
  obtain ⟨p, e', h⟩ := labelled_value.mp (C35_labels hp)
  rw [e] at e'
  cases e'
  rw [hm] at h
  generalize b.specVersion = w at h
  cases v <;> cases w <;> first | rfl | simp [versionLabel] at h

/-- Whether a result is one. -/
def isOk {ε α : Type} : Except ε α → Bool
  | .ok _ => true
  | .error _ => false

/-- Whether a document is labelled with the version. -/
def labelEval (v : SpecVersion) : Json → Bool
  | .obj o => match o.reverse.lookup "specVersion" with
    | some (.str s) => s == versionLabel v
    | _ => false
  | _ => false

theorem labelEval_sound {v : SpecVersion} {j : Json} (h : labelEval v j = true) : LabelledAs v j := by
  unfold labelEval at h
  split at h
  · split at h
    · rename_i s hs
      simp only [beq_iff_eq] at h
      exact ⟨_, rfl, h ▸ hs⟩
    · cases h
  · cases h

attribute [local instance] Example.f32 Example.limit in
/-- Non-vacuity: a document with something of nearly everything meets the hypotheses of
`C73_conforming_read_partial` in every version. -/
example (v : SpecVersion) : LabelledAs v (plainBom.toJson v) ∧
    Conforms (fun f s => Witness.formats f s = true) v (plainBom.toJson v) ∧ (plainBom.toJson v).Unique ∧
    Within ReadLimit.limit (plainBom.toJson v) ∧ Everywhere Readable (plainBom.toJson v) ∧
    Has "version" (plainBom.toJson v) := by
  have h1 : labelEval v (plainBom.toJson v) = true := by cases v <;> decide +kernel
  have h2 : (Elem.bom (plainBom.at v)).allInside (Elem.ruleEval Witness.formats v) 20 = true := by
    cases v <;> decide +kernel
  have h3 : plainBom.outputJson v = .ok (plainBom.toJson v) := by cases v <;> rfl
  have h4 := saneEval_sound 127 _ (by cases v <;> decide +kernel : saneEval 127 (plainBom.toJson v) = true)
  have h5 : hasEval "version" (plainBom.toJson v) = true := by cases v <;> decide +kernel
  exact ⟨labelEval_sound h1, C66_conforms_partial (sound_of_eval h2) h3, h4.unique, h4.within, h4.plain,
    hasEval_iff.mp h5⟩

/-! ### Documents that conform to the schema and cannot be read -/

namespace Unreadable

/-- A document with some members. -/
def document (s : String) (l : List (String × Json)) : Json :=
  .obj ([("bomFormat", .str "CycloneDX"), ("specVersion", .str s), ("version", .nat 1)] ++ l)

def component (s : String) (l : List (String × Json)) : Json :=
  document s [("components", .arr [.obj ([("type", .str "library"), ("name", .str "n"), ("version", .str "1")] ++ l)])]

def vulnerability (s : String) (l : List (String × Json)) : Json :=
  document s [("vulnerabilities", .arr [.obj l])]

def input (l : List (String × Json)) : Json :=
  document "1.5" [("formulation", .arr [.obj [("workflows", .arr [.obj
    [("bom-ref", .str "w"), ("uid", .str "u"), ("taskTypes", .arr [.str "build"]), ("inputs", .arr [.obj l])]])]])]

def dataset (j : Json) : Json :=
  component "1.5" [("modelCard", .obj [("modelParameters", .obj [("datasets", .arr [j])])])]

/-- Pairs of documents: the first cannot be read, the second, which lacks only the flaw, can. Both
conform to the schema. -/
def list : List (SpecVersion × Json × Json) :=
  [ -- `small`: numbers that do not fit in 32 bits, or are written with a fraction
    (.v1_4, .obj [("bomFormat", .str "CycloneDX"), ("specVersion", .str "1.4"), ("version", .nat (2 ^ 32))],
      document "1.4" []),
    (.v1_3, .obj [("bomFormat", .str "CycloneDX"), ("specVersion", .str "1.3"), ("version", .float 0x3f800000)],
      document "1.3" []),
    (.v1_5, component "1.5" [("swid", .obj [("tagId", .str "t"), ("name", .str "n"), ("tagVersion", .nat (2 ^ 32))])],
      component "1.5" [("swid", .obj [("tagId", .str "t"), ("name", .str "n"), ("tagVersion", .nat 7)])]),
    (.v1_5, component "1.5" [("evidence", .obj [("callstack", .obj [("frames", .arr [.obj
        [("module", .str "m"), ("line", .nat (2 ^ 32))]])])])],
      component "1.5" [("evidence", .obj [("callstack", .obj [("frames", .arr [.obj
        [("module", .str "m"), ("line", .nat 7)]])])])]),
    (.v1_5, component "1.5" [("evidence", .obj [("callstack", .obj [("frames", .arr [.obj
        [("module", .str "m"), ("column", .float 0x3f800000)]])])])],
      component "1.5" [("evidence", .obj [("callstack", .obj [("frames", .arr [.obj
        [("module", .str "m"), ("column", .nat 1)]])])])]),
    -- `cwes`
    (.v1_4, vulnerability "1.4" [("cwes", .arr [.nat (2 ^ 32)])], vulnerability "1.4" [("cwes", .arr [.nat 79])]),
    -- `named`: a property without a name or without a value
    (.v1_5, document "1.5" [("properties", .arr [.obj [("name", .str "n")]])],
      document "1.5" [("properties", .arr [.obj [("name", .str "n"), ("value", .str "v")]])]),
    (.v1_3, component "1.3" [("properties", .arr [.obj [("value", .str "v")]])],
      component "1.3" [("properties", .arr [.obj [("name", .str "n"), ("value", .str "v")]])]),
    -- `environment`
    (.v1_5, input [("environmentVars", .arr [.obj [("name", .str "PATH")]])],
      input [("environmentVars", .arr [.obj [("name", .str "PATH"), ("value", .str "")], .str "HOME"])]),
    -- `versions`: no status
    (.v1_5, vulnerability "1.5" [("affects", .arr [.obj [("ref", .str "r"), ("versions", .arr [.obj
        [("version", .str "1")]])]])],
      vulnerability "1.5" [("affects", .arr [.obj [("ref", .str "r"), ("versions", .arr [.obj
        [("version", .str "1"), ("status", .str "affected")]])]])]),
    -- `targets` and `references`: the schema of 1.4 accepts anything that is not an object
    (.v1_4, vulnerability "1.4" [("affects", .arr [.str "r"])],
      vulnerability "1.4" [("affects", .arr [.obj [("ref", .str "r")]])]),
    (.v1_4, vulnerability "1.4" [("references", .arr [.str "r"])],
      vulnerability "1.4" [("references", .arr [.obj [("id", .str "r"), ("source", .obj [("name", .str "s")])]])]),
    -- `frames`
    (.v1_5, component "1.5" [("evidence", .obj [("callstack", .obj [])])],
      component "1.5" [("evidence", .obj [("callstack", .obj [("frames", .arr [])])])]),
    -- `data`
    (.v1_5, component "1.5" [("data", .arr [])], component "1.5" []),
    -- `signature`
    (.v1_4, component "1.4" [("signature", .obj [("signers", .arr [])])],
      component "1.4" []),
    (.v1_5, document "1.5" [("signature", .obj [("chain", .arr [])])],
      document "1.5" []),
    -- `datasets`
    (.v1_5, dataset (.obj [("ref", .str "d")]), dataset (.obj [("type", .str "dataset"), ("name", .str "d")])),
    -- `sensitive`
    (.v1_5, dataset (.obj [("type", .str "dataset"), ("sensitiveData", .arr [.str "x"])]),
      dataset (.obj [("type", .str "dataset")])),
    -- `governance`
    (.v1_5, dataset (.obj [("type", .str "dataset"), ("governance", .obj [("owners", .arr [.obj
        [("contact", .obj [("name", .str "Jo")])]])])]),
      dataset (.obj [("type", .str "dataset"), ("governance", .obj [("owners", .arr [])])])),
    -- `bomRef`
    (.v1_3, document "1.3" [("metadata", .obj [("authors", .arr [.obj [("bomRef", .nat 1)]])])],
      document "1.3" [("metadata", .obj [("authors", .arr [.obj [("bomRef", .str "1")]])])]),
    -- `license`
    (.v1_3, component "1.3" [("licenses", .arr [.obj [("license", .obj [("name", .str "l")]), ("note", .str "x")]])],
      component "1.3" [("licenses", .arr [.obj [("license", .obj [("name", .str "l")])]])]),
    -- no `version`, which the schema of 1.5 does not ask for
    (.v1_5, .obj [("bomFormat", .str "CycloneDX"), ("specVersion", .str "1.5")], document "1.5" []) ]

end Unreadable

theorem conforms_of_eval {F : Formats} {v : SpecVersion} {j : Json} (h : documentEval v j = some true) :
    Conforms F v j := (Schema.eval_sound (schemaContext F v) (known := fun _ _ => none) (fun _ _ => ⟨nofun, nofun⟩) 60 _ j).1 h

attribute [local instance] Example.f32 Example.limit in
/-- C73 refuted: the first document of each pair conforms to the schema of its version, whatever the
formats mean, and cannot be read. The second one conforms as well, satisfies the conditions of
`C73_conforming_read_partial`, and is read. -/
theorem C73_unreadable : ∀ w ∈ Unreadable.list,
    (LabelledAs w.1 w.2.1 ∧ (∀ F, Conforms F w.1 w.2.1) ∧ w.2.1.Unique ∧ Within 20 w.2.1 ∧
      ∃ e, Bom.parseJson w.2.1 = .error e) ∧
    (LabelledAs w.1 w.2.2 ∧ (∀ F, Conforms F w.1 w.2.2) ∧ w.2.2.Unique ∧ Within 20 w.2.2 ∧
      Everywhere Readable w.2.2 ∧ Has "version" w.2.2 ∧ ∃ b, Bom.parseJson w.2.2 = .ok b) := by
  have key : (Unreadable.list.all fun w =>
      labelEval w.1 w.2.1 && (documentEval w.1 w.2.1 == some true) && shapeEval 20 w.2.1 &&
        !isOk (Bom.parseJson w.2.1) &&
      labelEval w.1 w.2.2 && (documentEval w.1 w.2.2 == some true) && saneEval 20 w.2.2 &&
        hasEval "version" w.2.2 && isOk (Bom.parseJson w.2.2)) = true := by
    decide +kernel
  have ok : ∀ {j : Json}, isOk (Bom.parseJson j) = true → ∃ b, Bom.parseJson j = .ok b := by
    intro j h
    cases e : Bom.parseJson j with
    | ok b => exact ⟨b, rfl⟩
    | error e' => rw [e] at h; cases h
  have bad : ∀ {j : Json}, isOk (Bom.parseJson j) = false → ∃ e, Bom.parseJson j = .error e := by
    intro j h
    cases e : Bom.parseJson j with
    | error b => exact ⟨b, rfl⟩
    | ok e' => rw [e] at h; cases h
  intro w hw
  have h := List.all_eq_true.mp key w hw
  simp only [Bool.and_eq_true, Bool.not_eq_true', beq_iff_eq] at h
  obtain ⟨⟨⟨⟨⟨⟨⟨⟨h1, h2⟩, h3⟩, h4⟩, h5⟩, h6⟩, h7⟩, h8⟩, h9⟩ := h
  have s := shapeEval_sound _ _ h3
  have t := saneEval_sound _ _ h7
  exact ⟨⟨labelEval_sound h1, fun F => conforms_of_eval h2, s.1, s.2, bad h4⟩,
    ⟨labelEval_sound h5, fun F => conforms_of_eval h6, t.unique, t.within, t.plain,
      hasEval_iff.mp h8, ok h9⟩⟩

end Cdx.Props
