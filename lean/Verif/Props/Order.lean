import Verif.Props.Documents
import Verif.Lemmas.Overridden
import Verif.Lemmas.ValueSchema
import Verif.Model.DecEq

/-!
# Properties C80 and C81: the order of the members of JSON objects, and members given twice
-/

namespace Cdx.Props

open Spec

section
variable [F32Format] [ReadLimit] {v : SpecVersion} {a b j : Json}

/-! ## C80: the order of members does not matter -/

/-- C80: documents that differ in the order of the members of objects only are read as the same by
`Bom::parse_from_json`, or both rejected. -/
theorem C80_parse (h : Reordered [] a b) : Bom.parseJson a = Bom.parseJson b := by
  rw [Bom.parseJson, Bom.parseJson, h.toValue]

/-- C80 (partial): the same for the reader that is told the version, if in no object the order
changes which of `id` and `name`, and which of `range`, `undefinedVersionRange` and `version`, comes
first. `C80_order_matters` shows that this is needed. -/
theorem C80_parse_with_partial (h : Reordered alternatives a b) :
    Bom.parseJsonWith v a = Bom.parseJsonWith v b :=
  OrderFree.eq (f := Bom.ofJson v) h

/-- C80: what is written can be reordered in any way without a change for `Bom::parse_from_json`. -/
theorem C80_written {d : Bom} (h : Bom.JsonOk v d) (hr : Reordered [] (d.toJson v) j) :
    Bom.parseJson j = .ok (d.at v) := by
  rw [← C80_parse hr]
  obtain ⟨i, h1, h2, -⟩ := C44_json_partial h
  unfold Bom.outputJson at h1
  rw [if_pos h.converts] at h1
  cases h1
  exact h2

end

/-- A document with a licensed component. -/
def licensed (l : List (String × Json)) : Json :=
  .obj [("bomFormat", .str "CycloneDX"), ("specVersion", .str "1.4"), ("version", .nat 1),
    ("components", .arr [.obj [("type", .str "library"), ("name", .str "n"), ("version", .str "1"),
      ("licenses", .arr [.obj [("license", .obj l)]])]])]

/-- An object with two members is the same with the members swapped. -/
theorem swapped {G : List (List String)} {k l : String} {x y : Json} (h : k ≠ l) (hx : x.Unique)
    (hy : y.Unique) (hG : ∀ names ∈ G, k ∉ names ∨ l ∉ names) :
    Reordered G (.obj [(k, x), (l, y)]) (.obj [(l, y), (k, x)]) := by
  refine .obj (by simpa using h) (by simpa using h.symm) (fun m => ?_) (fun m x' y' h1 h2 => ?_) fun names hn => ?_
  · simp only [List.mem_cons, List.not_mem_nil, or_false]
    exact ⟨fun ⟨z, hz⟩ => ⟨z, hz.symm⟩, fun ⟨z, hz⟩ => ⟨z, hz.symm⟩⟩
  · simp only [List.mem_cons, List.not_mem_nil, or_false, Prod.mk.injEq] at h1 h2
    rcases h1 with ⟨rfl, rfl⟩ | ⟨rfl, rfl⟩ <;> rcases h2 with ⟨e, rfl⟩ | ⟨e, rfl⟩ <;>
      first
        | exact absurd e h
        | exact absurd e h.symm
        | exact Spec.Reordered.refl_of_unique ‹_›
  · rcases hG names hn with h | h <;> by_cases h' : k ∈ names <;> by_cases h'' : l ∈ names <;>
      simp_all [firstOf]

theorem unique_object {o : List (String × Json)} (h : (o.map Prod.fst).Nodup) (ho : ∀ m ∈ o, m.2.Unique) :
    Json.Unique (.obj o) := .obj h ho

theorem licensed_unique {l : List (String × Json)} (h : Json.Unique (.obj l)) : (licensed l).Unique := by
  refine .obj (by simp) fun m hm => ?_
  simp only [List.mem_cons, List.not_mem_nil, or_false] at hm
  rcases hm with rfl | rfl | rfl | rfl
  · exact .str
  · exact .str
  · exact .nat
  refine .arr fun m hm => ?_
  simp only [List.mem_cons, List.not_mem_nil, or_false] at hm
  subst hm
  refine .obj (by simp) fun m hm => ?_
  simp only [List.mem_cons, List.not_mem_nil, or_false] at hm
  rcases hm with rfl | rfl | rfl | rfl
  · exact .str
  · exact .str
  · exact .str
  refine .arr fun m hm => ?_
  simp only [List.mem_cons, List.not_mem_nil, or_false] at hm
  subst hm
  refine .obj (by simp) fun m hm => ?_
  simp only [List.mem_cons, List.not_mem_nil, or_false] at hm
  subst hm
  exact h

theorem licensed_reordered {G : List (List String)} {l m : List (String × Json)}
    (h : Reordered G (.obj l) (.obj m)) : Reordered G (licensed l) (licensed m) := by
  have hl : Json.Unique (.obj l) := h.symm.unique
  have hu := licensed_unique hl
  refine reordered_last (o := [("bomFormat", .str "CycloneDX"), ("specVersion", .str "1.4"), ("version", .nat 1)])
    hu (.cons ?_ .nil)
  cases hu with | obj _ hu =>
  cases hu (_, _) (by simp only [List.mem_cons]; exact .inr (.inr (.inr (.inl rfl)))) with | arr hu =>
  have hu := hu _ (List.mem_cons_self ..)
  refine reordered_last (o := [("type", .str "library"), ("name", .str "n"), ("version", .str "1")])
    hu (.cons ?_ .nil)
  exact reordered_last (o := []) (.obj (by simp) (by simpa using hl)) h

/-- Non-vacuity: documents that differ in the order of members. -/
example : Reordered [] (licensed [("name", .str "x"), ("id", .str "MIT")])
    (licensed [("id", .str "MIT"), ("name", .str "x")]) :=
  licensed_reordered (swapped (by decide) .str .str nofun)

/-- Non-vacuity: the order of `id` and `url` may be changed for both readers. -/
example : Reordered alternatives (licensed [("url", .str "x"), ("id", .str "MIT")])
    (licensed [("id", .str "MIT"), ("url", .str "x")]) :=
  licensed_reordered (swapped (by decide) .str .str (by decide))

attribute [local instance] Example.f32 Example.limit in
/-- C80: the reader that is told the version does see the order of `id` and `name` in a license. -/
theorem C80_order_matters :
    Reordered [] (licensed [("name", .str "x"), ("id", .str "MIT")])
      (licensed [("id", .str "MIT"), ("name", .str "x")]) ∧
    Bom.parseJsonWith .v1_4 (licensed [("name", .str "x"), ("id", .str "MIT")]) ≠
      Bom.parseJsonWith .v1_4 (licensed [("id", .str "MIT"), ("name", .str "x")]) ∧
    (∃ b, Bom.parseJsonWith .v1_4 (licensed [("name", .str "x"), ("id", .str "MIT")]) = .ok b) ∧
    ∃ b, Bom.parseJsonWith .v1_4 (licensed [("id", .str "MIT"), ("name", .str "x")]) = .ok b := by
  refine ⟨licensed_reordered (swapped (by decide) .str .str nofun), by decide +kernel, ⟨_, rfl⟩, ⟨_, rfl⟩⟩

/-! ## C81: the two readers, and members given twice -/

section
variable [F32Format] [ReadLimit] {v : SpecVersion} {a b j : Json}

/-- C81 (partial): `Bom::parse_from_json` and the reader for the version that the document is labelled
with agree, if no object has two members of the same name and in each object the names of
`alternatives` are in alphabetical order, if it has more than one of a group. `C80_order_matters` and
`C81_disagree` show that this is needed. -/
theorem C81_agree_partial (hl : LabelledAs v j) (hu : j.Unique) (hr : Ranked alternatives j) :
    Bom.parseJson j = Bom.parseJsonWith v j := by
  rw [C35_selects hl]
  exact (C80_parse_with_partial (reordered_toValue hu hr)).symm

/-- C81: the two readers agree on all documents that are written, also on those that they reject. -/
theorem C81_written {d : Bom} (h : d.outputJson v = .ok j) :
    Bom.parseJson j = Bom.parseJsonWith v j := by
  unfold Bom.outputJson at h
  split at h
  · cases h
    rw [C35_selects written_labelled]
    exact Bom.ofJson_written
  · cases h

/-- C81: `Bom::parse_from_json` goes by the last of the members of an object with the same name. -/
theorem C81_last_counts (h : Overridden a b) : Bom.parseJson a = Bom.parseJson b := by
  rw [Bom.parseJson, Bom.parseJson, h.toValue]

/-- The members of a document that a version has. -/
def documentMembers (v : SpecVersion) : List String :=
  ["bomFormat", "specVersion", "version", "serialNumber", "metadata", "components", "services",
    "externalReferences", "dependencies", "compositions"] ++
  (if v = .v1_3 then [] else ["vulnerabilities", "signature"]) ++
  (if v = .v1_5 then ["annotations", "properties", "formulation"] else [])

/-- C81: the reader that is told the version rejects documents with one of these members given
twice. -/
theorem C81_twice_rejected {before mid after : List (String × Json)} {k : String} {x y : Json}
    (hk : k ∈ documentMembers v) :
    ∃ e, Bom.parseJsonWith v (.obj (before ++ (k, x) :: mid ++ (k, y) :: after)) = .error e := by
  obtain ⟨e, he⟩ := get_twice (before := before) (mid := mid) (after := after) (k := k) (x := x) (y := y)
  generalize before ++ (k, x) :: mid ++ (k, y) :: after = o at he
  cases hb : Bom.parseJsonWith v (.obj o) with
  | error e => exact ⟨e, rfl⟩
  | ok b =>
    exfalso
    have hreq : ∀ {α : Type} (f : Json → Except String α), Json.req o k f = .error e := fun f => by
      unfold Json.req; rw [he]
    have hopt : ∀ {α : Type} (f : Json → Except String α), Json.opt o k f = .error e := fun f => by
      unfold Json.opt; rw [he]
    unfold Bom.parseJsonWith Bom.ofJson at hb
    simp only [Json.fields, bind, Except.bind] at hb
    cases v <;> simp only [documentMembers, since14, since15, List.mem_append, List.mem_cons, List.not_mem_nil,
        or_false, or_assoc, reduceCtorEq, if_true, if_false] at hk hb <;>
      (repeat (split at hb; · cases hb)) <;>
      (clear hb
       repeat (rcases hk with rfl | hk; · simp only [hreq, hopt] at *; contradiction))

end

/-- A document with two version labels, of which the last counts. -/
def relabelled : Json :=
  .obj [("bomFormat", .str "CycloneDX"), ("specVersion", .str "1.3"), ("version", .nat 1),
    ("specVersion", .str "1.4")]

/-- Non-vacuity: a document that is labelled as 1.4 by the last of its members `specVersion`. -/
example : LabelledAs .v1_4 relabelled ∧ ¬ LabelledAs .v1_3 relabelled := by
  refine ⟨⟨_, rfl, rfl⟩, ?_⟩
  rintro ⟨o, e, h⟩
  cases e
  injection h with h
  injection h with h
  exact absurd h (by decide)

/-- Non-vacuity: it is read like the document without the first label. -/
example : Overridden relabelled
    (.obj [("bomFormat", .str "CycloneDX"), ("version", .nat 1), ("specVersion", .str "1.4")]) :=
  .here (before := [("bomFormat", .str "CycloneDX")])
    (after := [("version", .nat 1), ("specVersion", .str "1.4")]) (y := .str "1.4") (by simp)

/-- Non-vacuity: a licensed component is read alike by both readers. -/
example : LabelledAs .v1_4 (licensed [("id", .str "MIT"), ("name", .str "x")]) ∧
    (licensed [("id", .str "MIT"), ("name", .str "x")]).Unique ∧
    Ranked alternatives (licensed [("id", .str "MIT"), ("name", .str "x")]) := by
  refine ⟨⟨_, rfl, rfl⟩, licensed_unique (.obj (by decide) (by simp +contextual [Json.Unique.str])), ?_⟩
  refine .obj (by decide) fun m hm => ?_
  simp only [List.mem_cons, List.not_mem_nil, or_false] at hm
  rcases hm with rfl | rfl | rfl | rfl
  · exact .str
  · exact .str
  · exact .nat
  refine .arr fun m hm => ?_
  simp only [List.mem_cons, List.not_mem_nil, or_false] at hm
  subst hm
  refine .obj (by decide) fun m hm => ?_
  simp only [List.mem_cons, List.not_mem_nil, or_false] at hm
  rcases hm with rfl | rfl | rfl | rfl
  · exact .str
  · exact .str
  · exact .str
  refine .arr fun m hm => ?_
  simp only [List.mem_cons, List.not_mem_nil, or_false] at hm
  subst hm
  refine .obj (by decide) fun m hm => ?_
  simp only [List.mem_cons, List.not_mem_nil, or_false] at hm
  subst hm
  refine .obj (by decide) fun m hm => ?_
  simp only [List.mem_cons, List.not_mem_nil, or_false] at hm
  rcases hm with rfl | rfl
  · exact .str
  · exact .str

attribute [local instance] Example.f32 Example.limit in
/-- C81: on other documents the two readers differ. Of two members with the same name
`Bom::parse_from_json` takes the last, where the reader for the version fails; and of a license with
`name` before `id` the one takes the identifier, the other the name. -/
theorem C81_disagree :
    (LabelledAs .v1_4 relabelled ∧ (∃ b, Bom.parseJson relabelled = .ok b) ∧
      ∃ e, Bom.parseJsonWith .v1_4 relabelled = .error e) ∧
    LabelledAs .v1_4 (licensed [("name", .str "x"), ("id", .str "MIT")]) ∧
    (∃ b, Bom.parseJson (licensed [("name", .str "x"), ("id", .str "MIT")]) = .ok b ∧
      Bom.parseJsonWith .v1_4 (licensed [("name", .str "x"), ("id", .str "MIT")]) ≠ .ok b) :=
  ⟨⟨⟨_, rfl, rfl⟩, ⟨_, rfl⟩, ⟨_, rfl⟩⟩, ⟨_, rfl, rfl⟩, ⟨_, rfl, by decide +kernel⟩⟩

end Cdx.Props
