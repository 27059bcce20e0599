import Verif.Lemmas.Accepts.Parts

set_option linter.unusedSectionVars false
set_option linter.unusedSimpArgs false
set_option linter.unusedVariables false

/-!
# Reading elements that conform to the format: readers of other forms
-/

namespace Cdx

open Spec

variable {v : SpecVersion} {d : Nat} {α β σ ρ : Type}

theorem OkAt.legal {t attrs content l names} (h : OkAt v t attrs content)
    (ht : t.rule.content = .children l) (e : content.map nameOf = names.map some) : Legal v t names := by
  obtain ⟨ns, e', hl⟩ := children_names h ht
  rw [map_some_inj (e.symm.trans e')]
  exact hl

/-! ## References to tools -/

theorem toolRefs_all : ∀ (content : List XNode) (el : XName) (acc : List String),
    (∀ x ∈ content, ∃ n attrs ns, x = .elem n attrs ns [] ∧ n.localName = "tool" ∧
      ∃ s, reqAttr n attrs "ref" = .ok s) → el.localName ≠ "tool" →
    ∃ l, ∀ rest, toolRefsLoop el acc (XNode.eventsAll content ++ .stop el :: rest) = .ok (l, rest)
  | [], el, acc, _, h => ⟨acc, fun rest => by simp [XNode.eventsAll, toolRefsLoop, h]⟩
  | x :: content, el, acc, hx, h => by
    obtain ⟨n, attrs, ns, rfl, hn, s, hs⟩ := hx x (.head _)
    obtain ⟨l, e⟩ := toolRefs_all content el (acc ++ [s]) (fun y hy => hx y (.tail _ hy)) h
    exact ⟨l, fun rest => by simp [XNode.eventsAll, XNode.events, toolRefsLoop, hn, hs, e]⟩

theorem throughoutAll_mem {P t} : ∀ {content : List XNode}, ThroughoutAll P v t content → ∀ x ∈ content,
    ∀ n, nameOf x = some n → ∀ t', t.child v n = some t' → Throughout P v t' x
  | [], _, x, hx => nomatch hx
  | y :: content, h, x, hx => by
    rw [ThroughoutAll] at h
    rcases List.mem_cons.mp hx with rfl | hx
    · exact fun n hn t' ht' => h.1 n hn t' ht'
    · exact throughoutAll_mem h.2 x hx

theorem mem_names : ∀ {content : List XNode} {names : List String}, content.map nameOf = names.map some →
    ∀ x ∈ content, ∃ n attrs ns c, x = .elem n attrs ns c ∧ n.localName ∈ names := by
  intro content names e x hx
  have : nameOf x ∈ names.map some := by rw [← e]; exact List.mem_map_of_mem hx
  obtain ⟨m, hm, e'⟩ := List.mem_map.mp this
  cases x with
  | elem n attrs ns c => exact ⟨n, attrs, ns, c, rfl, by simp [nameOf] at e'; rw [← e']; exact hm⟩
  | chars s => simp [nameOf] at e'
  | cdata s => simp [nameOf] at e'
  | other => simp [nameOf] at e'

/-- The content of an element that has no child elements. -/
theorem empty_content {t attrs content} (ht : t.rule.content = .children [[]]) (h : OkAt v t attrs content) :
    content = [] := by
  obtain ⟨names, e, l, hl, names', hp, hf⟩ := children_names h ht
  simp only [ElementType.choices, ht, List.map_cons, List.map_nil, present, List.filter_nil,
    List.mem_singleton] at hl
  subst hl
  simp only [Follows] at hf
  subst hf
  have := hp.symm.eq_nil
  subst this
  simpa using e

/-- As `Takes`, for elements with a given name. -/
def TakesAs (v : SpecVersion) (d : Nat) (tag : String) (r : XElem α) (t : ElementType) : Prop :=
  ∀ n attrs ns content, n.localName = tag → Throughout (OkAt v) v t (.elem n attrs ns content) →
    depth.depthAll content < d → ∃ x, ∀ rest,
      r n attrs (XNode.eventsAll content ++ .stop n :: rest) = .ok (x, rest)

theorem armTakesAs {d name t} {Has : String → σ → Prop} {r : XElem α} {set : α → σ → σ}
    (h : TakesAs v d name r t) (h1 : ∀ y st, Has name (set y st)) (h2 : ∀ y st m, Has m st → Has m (set y st)) :
    ArmTakes v d Has name (arm r set) t := by
  intro n attrs ns content hn hc hd st
  obtain ⟨x, e⟩ := h n attrs ns content hn hc hd
  exact ⟨set x st, fun rest => by simp [arm, e, bind, Except.bind], h1 x st, h2 x st⟩

theorem takes_toolRefs : TakesAs v d "tools" readToolRefs .toolRefs := by
  intro n attrs ns content hn hc _
  rw [Throughout] at hc
  obtain ⟨names, e, hl⟩ := children_names hc.1 rfl
  obtain ⟨l, e⟩ := toolRefs_all content n [] (fun x hx => by
    obtain ⟨m, attrs', ns', c, rfl, hm⟩ := mem_names e x hx
    have h1 := hl.mem _ hm
    have h1 : m.localName = "tool" := by
      have e : (ElementType.toolRefs.items v).map (·.1) = ["tool"] := by cases v <;> rfl
      rw [e] at h1; simpa using h1
    have h2 := throughoutAll_mem hc.2 _ hx m.localName rfl .reference (by rw [h1]; cases v <;> decide +kernel)
    rw [Throughout] at h2
    have := empty_content rfl h2.1
    subst this
    exact ⟨m, attrs', ns', rfl, h1, h2.1.attrs.req m "ref" (by cases v <;> decide +kernel)⟩) (by rw [hn]; decide)
  exact ⟨l, e⟩

/-! ## Lists and structures that leave out something -/

theorem takes_datasets {r : XElem α} (h : Takes v d r .componentData) :
    Takes v d (readList "dataset" r) .datasets := by
  have hs : Takes v (d + 1) (readStruct .fail (fun _ _ => .ok ()) ([] : List α)
      [("dataset", arm r fun x (l : List α) => l ++ [x])] fun _ _ l => .ok l) .datasets := by
    refine takes_struct_has rfl (fun _ _ => True) (fun _ _ _ => ⟨(), rfl⟩) ?_ ?_ fun _ _ st _ => ⟨st, rfl⟩
    · exact armsTake_cons .componentData (by cases v <;> decide +kernel)
        (armTakes h (fun _ _ => trivial) fun _ _ _ _ => trivial) armsTake_nil
    · intro el attrs content ns hok e name hn
      have := (hok.legal rfl e).mem name hn
      have e1 : (ElementType.datasets.items v).map (·.1) = ["dataset", "ref"] := by cases v <;> rfl
      rw [e1] at this
      simp only [List.mem_cons, List.not_mem_nil, or_false] at this
      rcases this with rfl | rfl
      · exact .inr (by simp)
      · have : some "ref" ∈ content.map nameOf := by rw [e]; exact List.mem_map_of_mem hn
        obtain ⟨x, hx, ex⟩ := List.mem_map.mp this
        exact absurd ex (hok.2.2.2.2.2.2.2.2 rfl x hx)
  intro n attrs ns content hc hd
  obtain ⟨x, e⟩ := hs n attrs ns content hc (by omega)
  refine ⟨x, fun rest => ?_⟩
  rw [← e rest]
  simp only [readStruct, readList, readListWith, bind, Except.bind]
  split <;> rename_i heq <;> simp [heq]

theorem EnvironmentVar.takesProperty : Takes v d EnvironmentVar.readProperty .property := by
  intro n attrs ns content hc hd
  obtain ⟨s, e⟩ := takes_simple (v := v) (d := d) (t := .property) rfl n attrs ns content hc hd
  rw [Throughout] at hc
  obtain ⟨k, hk⟩ := hc.1.attrs.req n "name" (by cases v <;> decide +kernel)
  exact ⟨.property k s, fun rest => by simp [EnvironmentVar.readProperty, e, hk, bind, Except.bind, Except.map]⟩

theorem EnvironmentVar.takes : Takes v d EnvironmentVar.readAll .environmentVars :=
  takes_struct ["environmentVar", "value"] rfl (fun _ _ => True) (fun _ _ _ => ⟨_, rfl⟩)
    (armsTake_cons .property (by cases v <;> decide +kernel)
      (armTakes EnvironmentVar.takesProperty (fun _ _ => trivial) fun _ _ _ _ => trivial) <|
      armsTake_cons .string (by cases v <;> decide +kernel)
        (armTakes (takes_simple rfl) (fun _ _ => trivial) fun _ _ _ _ => trivial) armsTake_nil)
    rfl (by cases v <;> decide +kernel) (fun _ _ _ _ => ⟨_, rfl⟩)

theorem Swid.takes : Takes v d Swid.readXml .swid :=
  takes_struct ["text", "url"] rfl (fun _ _ => True)
    (fun el attrs h => by
      obtain ⟨s0, h0⟩ := h.req el "tagId" (by cases v <;> decide +kernel)
      obtain ⟨s1, h1⟩ := h.req el "name" (by cases v <;> decide +kernel)
      have h2 : ∃ x, optParse (parseU32Attr "tagVersion") (optAttr attrs "tagVersion") = .ok x := by
        cases hl : optAttr attrs "tagVersion" with
        | none => exact ⟨none, rfl⟩
        | some s =>
          have hm : has "tagVersion" .integer ∈ ElementType.swid.attributes v := by
            cases v <;> simp [ElementType.attributes, ElementType.rule, minor]
          obtain ⟨x, hx⟩ := integer_parse ((h.1 _ hm).2 s hl) (h.2 _ hm s hl)
          exact ⟨some x, by simp [optParse, parseU32Attr, hx, Except.map]⟩
      have h3 : ∃ x, optParse (parseBool "patch") (optAttr attrs "patch") = .ok x := by
        cases hl : optAttr attrs "patch" with
        | none => exact ⟨none, rfl⟩
        | some s =>
          have hm : has "patch" .boolean ∈ ElementType.swid.attributes v := by
            cases v <;> simp [ElementType.attributes, ElementType.rule, minor]
          obtain ⟨x, hx⟩ := parseBool_admits (el := "patch") ((h.1 _ hm).2 s hl)
          exact ⟨some x, by simp [optParse, hx, Except.map]⟩
      obtain ⟨x2, h2⟩ := h2
      obtain ⟨x3, h3⟩ := h3
      simp [h0, h1, h2, h3, bind, Except.bind])
    (armsTake_cons .attachedText (by cases v <;> decide +kernel)
      (armTakes (takes_with (fun _ _ _ => ⟨_, rfl⟩) (takes_inner rfl (by decide))) (fun _ _ => trivial) fun _ _ _ _ => trivial) <|
      armsTake_cons .string (by cases v <;> decide +kernel)
        (armTakes (takes_simple rfl) (fun _ _ => trivial) fun _ _ _ _ => trivial) armsTake_nil)
    rfl (by cases v <;> decide +kernel) (fun _ _ _ _ => ⟨_, rfl⟩)

/-! ## Structures for which the numbers of child elements matter -/

/-- An arm that reads an element, given what is known about the variables before. -/
def Steps (v : SpecVersion) (d : Nat) (Inv : List String → σ → Prop) (names : List String) (name : String)
    (act : Arm σ) (t : ElementType) : Prop :=
  ∀ done more, names = done ++ name :: more → ∀ n attrs ns content, n.localName = name →
    Throughout (OkAt v) v t (.elem n attrs ns content) → depth.depthAll content < d → ∀ st, Inv done st →
    ∃ st', (∀ rest, act n attrs st (XNode.eventsAll content ++ .stop n :: rest) = .ok (st', rest)) ∧
      Inv (done ++ [name]) st'

theorem handles_inv {t mode el} {arms : List (String × Arm σ)} {Inv : List String → σ → Prop}
    {names known : List String} (hl : Legal v t names) (hknown : arms.map (·.1) = known)
    (hnames : ((t.items v).all fun q => known.contains q.1) = true)
    (harms : ∀ q ∈ arms, ∀ t', t.child v q.1 = some t' → Steps v d Inv names q.1 q.2 t') :
    Handles v d t mode el arms Inv names := by
  intro done name more e n attrs ns content st hn hc hd hi
  have hmem : name ∈ names := by rw [e]; simp
  obtain ⟨t', ht'⟩ := hl.child hmem
  obtain ⟨q, hq, hqn⟩ := List.mem_map.mp (hl.mem name hmem)
  have hk := List.all_eq_true.mp hnames q hq
  have : name ∈ arms.map (·.1) := by rw [hknown, ← hqn]; simpa using hk
  obtain ⟨act, hact⟩ := lookup_isSome this
  have hm := mem_of_lookup hact
  obtain ⟨st', e', hi'⟩ := harms _ hm t' ht' done more e n attrs ns content hn (hc t' ht') hd st hi
  exact ⟨st', hi', fun rest => fields_arm (by rw [hn]; exact hact) (e' rest)⟩

theorem steps_arm {t name} {Inv : List String → σ → Prop} {names : List String} {r : XElem α}
    {set : α → σ → σ} (h : Takes v d r t) (hi : ∀ done st x, Inv done st → Inv (done ++ [name]) (set x st)) :
    Steps v d Inv names name (arm r set) t := by
  intro done more e n attrs ns content hn hc hd st hst
  obtain ⟨x, ex⟩ := h n attrs ns content hc hd
  exact ⟨set x st, fun rest => by simp [arm, ex, bind, Except.bind], hi done st x hst⟩

theorem steps_once {t name} {Inv : List String → σ → Prop} {names : List String} {r : XElem α}
    {isSet : σ → Bool} {set : α → σ → σ} (h : Takes v d r t)
    (hset : ∀ done more st, names = done ++ name :: more → Inv done st → isSet st = false)
    (hi : ∀ done st x, Inv done st → Inv (done ++ [name]) (set x st)) :
    Steps v d Inv names name (armOnce r isSet set) t := by
  intro done more e n attrs ns content hn hc hd st hst
  obtain ⟨x, ex⟩ := h n attrs ns content hc hd
  exact ⟨set x st, fun rest => by simp [armOnce, hset done more st e hst, arm, ex, bind, Except.bind], hi done st x hst⟩

theorem follows_most {p : Particle} {l : List Particle} {names : List String} {m : Nat}
    (h : Follows (p :: l) names) (hm : p.most = some m)
    (hd : ∀ q ∈ l, ∀ n ∈ q.items.map (·.1), n ∉ p.items.map (·.1)) :
    (names.filter fun n => n ∈ p.items.map (·.1)).length ≤ m := by
  obtain ⟨piece, rest, rfl, h1, h2, h3, h4⟩ := h
  rw [List.filter_append]
  have : rest.filter (fun n => n ∈ p.items.map (·.1)) = [] := by
    rw [List.filter_eq_nil_iff]
    intro n hn
    obtain ⟨q, hq, hqn⟩ := follows_mem h4 n hn
    simpa using hd q hq n hqn
  rw [this, List.append_nil]
  exact Nat.le_trans (List.length_filter_le _ _) (h3 m hm)

/-- What is known after some child elements of a license. -/
def License.Inv (names : List String) (st : License.Vars) : Prop :=
  st.licenseIdentifier.isSome = true ↔ "id" ∈ names ∨ "name" ∈ names

theorem license_once {names done more : List String} {x : String} (hl : Legal v .license names)
    (e : names = done ++ x :: more) (hx : x = "id" ∨ x = "name") : ¬ ("id" ∈ done ∨ "name" ∈ done) := by
  obtain ⟨l, hl, names', hp, hf⟩ := hl
  have hcount : (names.filter fun n => n ∈ ["id", "name"]).length ≤ 1 := by
    rw [← (hp.filter _).length_eq]
    cases v <;> simp only [ElementType.choices, ElementType.rule, List.map_cons, List.map_nil,
      List.mem_singleton] at hl <;> subst hl <;>
      refine follows_most (p := oneOf [("id", .licenseId), ("name", .licenseName)]) hf rfl ?_ <;> decide +kernel
  intro hd
  have h1 : 1 ≤ (done.filter fun n => n ∈ ["id", "name"]).length := by
    have : ∃ y ∈ done, y ∈ ["id", "name"] := by
      rcases hd with h | h
      · exact ⟨_, h, by simp⟩
      · exact ⟨_, h, by simp⟩
    obtain ⟨y, hy, hy'⟩ := this
    exact List.length_pos_of_mem (List.mem_filter.mpr ⟨hy, by simpa using hy'⟩)
  rw [e, List.filter_append, List.filter_cons] at hcount
  have : decide (x ∈ ["id", "name"]) = true := by rcases hx with rfl | rfl <;> decide
  rw [if_pos this, List.length_append, List.length_cons] at hcount
  omega

theorem License.takes [F32Format] [ReadLimit] (H : DecimalsParse) : Takes v d (License.readXml v) .license := by
  refine Takes.mono ?_ (Nat.le_succ d)
  refine takes_struct_inv rfl License.Inv (fun _ _ _ => ⟨_, rfl⟩) (by simp [License.Inv]) ?_ ?_
  · intro el attrs content names hok e hl
    refine handles_inv (known := ["id", "name", "text", "url"] ++ since15 v ["licensing", "properties"] []) hl
      (by cases v <;> rfl) (by cases v <;> decide +kernel) ?_
    have hid : Steps v d License.Inv names "id" (armOnce readInner (fun s => s.licenseIdentifier.isSome)
        fun y s => { s with licenseIdentifier := some (.spdxId y) }) .licenseId :=
      steps_once (takes_inner rfl (by decide)) (fun done more st e h => by
        have := license_once hl e (.inl rfl)
        cases hs : st.licenseIdentifier.isSome
        · rfl
        · exact absurd (h.mp hs) this) (fun done st x h => by simp [License.Inv])
    have hname : Steps v d License.Inv names "name" (armOnce readInner (fun s => s.licenseIdentifier.isSome)
        fun y s => { s with licenseIdentifier := some (.name y) }) .licenseName :=
      steps_once (takes_inner rfl (by decide)) (fun done more st e h => by
        have := license_once hl e (.inr rfl)
        cases hs : st.licenseIdentifier.isSome
        · rfl
        · exact absurd (h.mp hs) this) (fun done st x h => by simp [License.Inv])
    have htext : Steps v d License.Inv names "text" (arm AttachedText.readXml
        fun y s => { s with text := some y }) .attachedText :=
      steps_arm (AttachedText.takes H) (fun done st x h => by simpa [License.Inv] using h)
    have hurl : Steps v d License.Inv names "url" (arm readSimple
        fun y s => { s with url := some y }) .string :=
      steps_arm (takes_simple rfl) (fun done st x h => by simpa [License.Inv] using h)
    have hlic : Steps v d License.Inv names "licensing" (arm Licensing.readXml
        fun y s => { s with licensing := some y }) .licensing :=
      steps_arm (Licensing.takes H) (fun done st x h => by simpa [License.Inv] using h)
    have hprop : Steps v d License.Inv names "properties" (arm (readListLax "property" Property.readXml)
        fun y s => { s with properties := some y }) .properties :=
      steps_arm (takes_list (t' := .property) rfl (by cases v <;> rfl) (Property.takes H))
        (fun done st x h => by simpa [License.Inv] using h)
    intro q hq t' ht'
    have kid : ElementType.license.child v "id" = some .licenseId := by cases v <;> decide +kernel
    have kname : ElementType.license.child v "name" = some .licenseName := by cases v <;> decide +kernel
    have ktext : ElementType.license.child v "text" = some .attachedText := by cases v <;> decide +kernel
    have kurl : ElementType.license.child v "url" = some .string := by cases v <;> decide +kernel
    simp only [License.arms, List.mem_append, List.mem_cons, List.not_mem_nil, or_false] at hq
    rcases hq with (rfl | rfl | rfl | rfl) | hq
    · rw [kid] at ht'; cases ht'; exact hid
    · rw [kname] at ht'; cases ht'; exact hname
    · rw [ktext] at ht'; cases ht'; exact htext
    · rw [kurl] at ht'; cases ht'; exact hurl
    · cases v with
      | v1_5 =>
        simp only [since15, List.mem_cons, List.not_mem_nil, or_false] at hq
        rcases hq with rfl | rfl
        · have : ElementType.license.child .v1_5 "licensing" = some .licensing := by decide +kernel
          rw [this] at ht'; cases ht'; exact hlic
        · have : ElementType.license.child .v1_5 "properties" = some .properties := by decide +kernel
          rw [this] at ht'; cases ht'; exact hprop
      | _ => exact absurd hq (by simp [since15])
  · intro el p st names hl hi
    have : "id" ∈ names ∨ "name" ∈ names := by
      obtain ⟨n, hn, hn'⟩ := seen_of_choices (v := v) (t := .license) (st := ()) (Has := fun n _ => n ∈ names)
        ["id", "name"] (by cases v <;> decide +kernel) hl.least
      simp only [List.mem_cons, List.not_mem_nil, or_false] at hn
      rcases hn with rfl | rfl
      · exact .inl hn'
      · exact .inr hn'
    obtain ⟨x, hx⟩ := Option.isSome_iff_exists.mp (hi.mpr this)
    simp [required, hx, bind, Except.bind]

/-- What is known after some child elements of a lifecycle. -/
def Lifecycle.Inv (names : List String) (st : Lifecycle.Vars) : Prop :=
  (st.phase.isSome = true ↔ "phase" ∈ names) ∧ (st.name.isSome = true ↔ "name" ∈ names) ∧
    (st.description.isSome = true ↔ "description" ∈ names)

/-- The names of the child elements belong to one of the choices. -/
theorem Legal.choice {t names} (h : Legal v t names) : ∃ l ∈ t.choices v,
    (∀ n ∈ names, n ∈ (l.flatMap (·.items)).map (·.1)) ∧
      ∀ p ∈ l, 0 < p.least → ∃ n ∈ p.items.map (·.1), n ∈ names := by
  obtain ⟨l, hl, names', hp, hf⟩ := h
  refine ⟨l, hl, fun n hn => ?_, fun p hp' h0 => ?_⟩
  · obtain ⟨q, hq, hqn⟩ := follows_mem hf n (hp.mem_iff.mpr hn)
    obtain ⟨y, hy, hyn⟩ := List.mem_map.mp hqn
    exact List.mem_map.mpr ⟨y, List.mem_flatMap.mpr ⟨q, hq, hy⟩, hyn⟩
  · obtain ⟨n, hn', hn⟩ := follows_least hf p hp' h0
    exact ⟨n, hn, hp.mem_iff.mp hn'⟩

theorem Lifecycle.takes : Takes v d Lifecycle.readXml .lifecycle := by
  refine Takes.mono ?_ (Nat.le_succ d)
  refine takes_struct_inv rfl Lifecycle.Inv (fun _ _ _ => ⟨_, rfl⟩) (by simp [Lifecycle.Inv]) ?_ ?_
  · intro el attrs content names hok e hl
    refine handles_inv (known := ["phase", "name", "description"]) hl rfl (by cases v <;> decide +kernel) ?_
    intro q hq t' ht'
    have k1 : ElementType.lifecycle.child v "phase" = some .string := by cases v <;> decide +kernel
    have k2 : ElementType.lifecycle.child v "name" = some .string := by cases v <;> decide +kernel
    have k3 : ElementType.lifecycle.child v "description" = some .string := by cases v <;> decide +kernel
    simp only [Lifecycle.arms, List.mem_cons, List.not_mem_nil, or_false] at hq
    rcases hq with rfl | rfl | rfl
    · rw [k1] at ht'; cases ht'
      dsimp only
      refine steps_arm (Inv := Lifecycle.Inv) (takes_simple (t := .string) rfl) fun done st x h => ?_
      · obtain ⟨h1, h2, h3⟩ := h; simp [Lifecycle.Inv, h2, h3]
    · rw [k2] at ht'; cases ht'
      dsimp only
      refine steps_arm (Inv := Lifecycle.Inv) (takes_simple (t := .string) rfl) fun done st x h => ?_
      · obtain ⟨h1, h2, h3⟩ := h; simp [Lifecycle.Inv, h1, h3]
    · rw [k3] at ht'; cases ht'
      dsimp only
      refine steps_arm (Inv := Lifecycle.Inv) (takes_simple (t := .string) rfl) fun done st x h => ?_
      · obtain ⟨h1, h2, h3⟩ := h; simp [Lifecycle.Inv, h1, h2]
  · intro el p st names hl hi
    obtain ⟨l, hl, hin, hleast⟩ := hl.choice
    have hl : l = [mustHave "phase" .string] ∨ l = [mustHave "name" .string, mayHave "description" .string] := by
      have e : ElementType.lifecycle.choices v = [[mustHave "phase" .string],
          [mustHave "name" .string, mayHave "description" .string]] := by cases v <;> rfl
      rw [e] at hl
      simpa using hl
    obtain ⟨h1, h2, h3⟩ := hi
    rcases hl with rfl | rfl
    · obtain ⟨n, hn, hn'⟩ := hleast _ (.head _) (by decide)
      have hn : n = "phase" := by simpa [mustHave] using hn
      subst hn
      have g2 : st.name = none := by
        cases hs : st.name with
        | none => rfl
        | some x =>
          have := hin _ (h2.mp (by simp [hs]))
          simp [mustHave] at this
      have g3 : st.description = none := by
        cases hs : st.description with
        | none => rfl
        | some x =>
          have := hin _ (h3.mp (by simp [hs]))
          simp [mustHave] at this
      obtain ⟨x, hx⟩ := Option.isSome_iff_exists.mp (h1.mpr hn')
      simp [hx, g2, g3]
    · obtain ⟨n, hn, hn'⟩ := hleast _ (.head _) (by decide)
      have hn : n = "name" := by simpa [mustHave] using hn
      subst hn
      have g1 : st.phase = none := by
        cases hs : st.phase with
        | none => rfl
        | some x =>
          have := hin _ (h1.mp (by simp [hs]))
          simp [mustHave, mayHave] at this
      obtain ⟨x, hx⟩ := Option.isSome_iff_exists.mp (h2.mpr hn')
      simp [hx, g1]

/-! ## Elements whose unknown parts are passed over -/

mutual
/-- The names of the elements below an element. -/
def XNode.inside : XNode → List String
  | .elem _ _ _ content => XNode.insideAll content
  | _ => []
def XNode.insideAll : List XNode → List String
  | [] => []
  | .elem n _ _ c :: l => n.localName :: (XNode.insideAll c ++ XNode.insideAll l)
  | _ :: l => XNode.insideAll l
end

theorem ignore_start {el : XName} {arms : List (String × Arm σ)} {st : σ} {n : XName} {attrs ns l}
    (h : arms.lookup n.localName = none) :
    readFields .ignore el arms st (.start n attrs ns :: l) = readFields .ignore el arms st l := by
  rw [readFields_start, h]

theorem ignore_stop {el : XName} {arms : List (String × Arm σ)} {st : σ} {n : XName} {l} (h : n ≠ el) :
    readFields .ignore el arms st (.stop n :: l) = readFields .ignore el arms st l := by
  rw [readFields_stop_other _ _ _ _ _ _ h, if_pos rfl]

theorem ignore_all {el : XName} {arms : List (String × Arm σ)} {st : σ} : ∀ (content : List XNode) (rest),
    (∀ n ∈ XNode.insideAll content, arms.lookup n = none ∧ n ≠ el.localName) →
    readFields .ignore el arms st (XNode.eventsAll content ++ rest) = readFields .ignore el arms st rest
  | [], rest, _ => by simp [XNode.eventsAll]
  | .elem n attrs ns c :: l, rest, h => by
    have h0 := h n.localName (by simp [XNode.insideAll])
    have h1 := ignore_all (st := st) c (.stop n :: (XNode.eventsAll l ++ rest)) fun m hm => h m (by simp [XNode.insideAll, hm])
    have h2 := ignore_all (st := st) l rest fun m hm => h m (by simp [XNode.insideAll, hm])
    have e : XNode.eventsAll (.elem n attrs ns c :: l) ++ rest =
        .start n attrs ns :: (XNode.eventsAll c ++ .stop n :: (XNode.eventsAll l ++ rest)) := by
      simp [XNode.eventsAll, XNode.events]
    rw [e, ignore_start h0.1, h1, ignore_stop (fun e => h0.2 (by rw [e])), h2]
  | .chars s :: l, rest, h => by
    have h2 := ignore_all (st := st) l rest fun m hm => h m (by simpa [XNode.insideAll] using hm)
    rw [XNode.eventsAll, XNode.events, List.singleton_append, List.cons_append, readFields_other _ _ _ _ _ _ (by simp) (by simp), if_pos rfl, h2]
  | .cdata s :: l, rest, h => by
    have h2 := ignore_all (st := st) l rest fun m hm => h m (by simpa [XNode.insideAll] using hm)
    rw [XNode.eventsAll, XNode.events, List.singleton_append, List.cons_append, readFields_other _ _ _ _ _ _ (by simp) (by simp), if_pos rfl, h2]
  | .other :: l, rest, h => by
    have h2 := ignore_all (st := st) l rest fun m hm => h m (by simpa [XNode.insideAll] using hm)
    rw [XNode.eventsAll, XNode.events, List.singleton_append, List.cons_append, readFields_other _ _ _ _ _ _ (by simp) (by simp), if_pos rfl, h2]

/-- The names of the children of an element are in the table. -/
theorem OkAt.items {t attrs content} (h : OkAt v t attrs content) : ∀ x ∈ content, ∀ n, nameOf x = some n →
    n ∈ (t.items v).map (·.1) := by
  intro x hx n hn
  cases ht : t.rule.content with
  | text type =>
    rcases text_cases h ht with ⟨rfl, _⟩ | ⟨s, rfl | rfl, _⟩
    · exact nomatch hx
    · rw [List.mem_singleton.mp hx] at hn; simp [nameOf] at hn
    · rw [List.mem_singleton.mp hx] at hn; simp [nameOf] at hn
  | children l =>
    obtain ⟨names, e, hl⟩ := children_names h ht
    obtain ⟨m, attrs', ns', c, rfl, hm⟩ := mem_names e x hx
    simp only [nameOf, Option.some.injEq] at hn
    rw [← hn]
    exact hl.mem _ hm

/-- The elements below an element of one of a set of types that has only children of these types. -/
theorem inside_names (S : List ElementType) (bad : List String)
    (hS : (S.all fun t => (t.items v).all fun q => S.contains q.2 && !bad.contains q.1) = true) :
    ∀ (content : List XNode) (t : ElementType), t ∈ S → (∀ x ∈ content, ∀ n, nameOf x = some n → n ∈ (t.items v).map (·.1)) →
      ThroughoutAll (OkAt v) v t content → ∀ n ∈ XNode.insideAll content, n ∉ bad
  | [], t, _, _, _, n, hn => by simp [XNode.insideAll] at hn
  | .elem m attrs ns c :: l, t, ht, hm, h, n, hn => by
    rw [ThroughoutAll] at h
    have h1 := hm _ (.head _) m.localName rfl
    obtain ⟨t', ht'⟩ := lookup_isSome h1
    have hq := mem_of_lookup ht'
    have := List.all_eq_true.mp (List.all_eq_true.mp hS t ht) _ hq
    simp only [Bool.and_eq_true, List.contains_iff_mem, Bool.not_eq_true', ← Bool.not_eq_true] at this
    have h2 := h.1 m.localName rfl t' ht'
    rw [Throughout] at h2
    simp only [XNode.insideAll, List.mem_cons, List.mem_append] at hn
    rcases hn with rfl | hn | hn
    · exact this.2
    · exact inside_names S bad hS c t' this.1 h2.1.items h2.2 n hn
    · exact inside_names S bad hS l t ht (fun x hx => hm x (.tail _ hx)) h.2 n hn
  | .chars s :: l, t, ht, hm, h, n, hn => by
    rw [ThroughoutAll] at h
    exact inside_names S bad hS l t ht (fun x hx => hm x (.tail _ hx)) h.2 n (by simpa [XNode.insideAll] using hn)
  | .cdata s :: l, t, ht, hm, h, n, hn => by
    rw [ThroughoutAll] at h
    exact inside_names S bad hS l t ht (fun x hx => hm x (.tail _ hx)) h.2 n (by simpa [XNode.insideAll] using hn)
  | .other :: l, t, ht, hm, h, n, hn => by
    rw [ThroughoutAll] at h
    exact inside_names S bad hS l t ht (fun x hx => hm x (.tail _ hx)) h.2 n (by simpa [XNode.insideAll] using hn)

theorem Callstack.takes [F32Format] [ReadLimit] (H : DecimalsParse) :
    TakesAs v d "callstack" Callstack.readXml .callstack := by
  intro el attrs ns content hel hc hd
  rw [Throughout] at hc
  have hh : Handles v d .callstack .ignore el Callstack.arms (fun _ _ => True) ((content.map nameOf).filterMap id) := by
    intro done name more e n attrs' ns' c st hn hc' hd' _
    have hmem : name ∈ (content.map nameOf).filterMap id := by rw [e]; simp
    obtain ⟨o, ho, eo⟩ := List.mem_filterMap.mp hmem
    obtain ⟨x, hx, ex⟩ := List.mem_map.mp ho
    have := hc.1.items x hx name (by rw [ex]; exact eo)
    have e1 : (ElementType.callstack.items v).map (·.1) = ["frames"] := by cases v <;> rfl
    rw [e1, List.mem_singleton] at this
    subst this
    have h2 := hc' .frames (by cases v <;> decide +kernel)
    rw [Throughout] at h2
    obtain ⟨names, en, hl⟩ := children_names h2.1 rfl
    have hh : Handles v d .frames .ignore el Callstack.arms (fun _ _ => True) names :=
      handles_inv (known := ["frame"]) hl rfl (by cases v <;> decide +kernel) (by
        intro q hq t' ht'
        have k1 : ElementType.frames.child v "frame" = some .frame := by cases v <;> decide +kernel
        rw [Callstack.arms, List.mem_singleton] at hq
        subst hq
        rw [k1] at ht'; cases ht'
        dsimp only
        exact steps_arm (Inv := fun _ _ => True) (Frame.takes H) fun _ _ _ _ => trivial)
    obtain ⟨st', -, e'⟩ := handle_content hh c [] names st rfl en h2.2 (by omega) trivial
    refine ⟨st', trivial, fun rest' => ?_⟩
    have hne : n ≠ el := fun e => by rw [e, hel] at hn; exact absurd hn (by decide)
    rw [elem_events, ignore_start (by rw [hn]; rfl), e', ignore_stop hne]
  obtain ⟨names, e, hl⟩ := children_names hc.1 rfl
  have e2 : (content.map nameOf).filterMap id = names := by rw [e]; simp
  rw [e2] at hh
  obtain ⟨st, -, es⟩ := handle_all hh content [] names [] rfl e hc.2 (by omega) trivial
  exact ⟨⟨st⟩, fun rest => by simp [Callstack.readXml, readStruct, es, bind, Except.bind]⟩

/-- The parts of a model card that are passed over. -/
def ModelCard.passed : List ElementType :=
  [.considerations, .users, .useCases, .technicalLimitations, .performanceTradeoffs, .ethicalConsiderations,
   .ethicalConsideration, .fairnessAssessments, .fairnessAssessment, .string, .properties, .property]

end Cdx
