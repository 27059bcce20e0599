import Verif.Lemmas.Macro

/-!
# Property C48: the `versioned` attribute
-/

namespace Cdx.Props
open Cdx

variable {args : Option (List String)} {content : Option (List Syn)} {items : List Syn}
  {modules : List (String × List Syn)}

/-- C48: a successful expansion has one module for each version in the list on the module, in this
order, named after the version. In the module for a version are, in the original order and at the
original depth, exactly those nodes which, like all nodes around them, have no version list or have
the version in it. They are unchanged but for the attribute itself, which is removed. -/
theorem C48_modules (h : expandModule args content = .ok modules) :
    ∃ versions items, parseVersions args = some versions ∧ content = some items ∧
      modules.map (·.1) = versions.map (fun v => "v" ++ toString v.major ++ "_" ++ toString v.minor) ∧
      modules.map (fun m => Syn.lines m.2) = versions.map fun v => Syn.linesFor v items := by
  unfold expandModule at h
  cases hp : parseVersions args with
  | none => rw [hp] at h; cases h
  | some versions =>
    rw [hp] at h
    cases content with
    | none => cases h
    | some items =>
      refine ⟨versions, items, rfl, rfl, ?_⟩
      dsimp only at h
      clear hp
      induction versions generalizing modules with
      | nil => cases h; exact ⟨rfl, rfl⟩
      | cons v l ih =>
        unfold expandVersions at h
        cases hf : Syn.foldAll v items with
        | error e => rw [hf] at h; cases h
        | ok folded =>
          rw [hf] at h
          cases hr : expandVersions items l with
          | error e => rw [hr] at h; cases h
          | ok rest =>
            rw [hr] at h
            cases h
            obtain ⟨h1, h2⟩ := ih hr
            have := Syn.foldAll_lines v items (around := []) (around' := []) hf rfl (by simp)
            refine ⟨by rw [List.map_cons, List.map_cons, h1]; rfl, ?_⟩
            rw [List.map_cons, List.map_cons, h2]
            congr 1
            exact this.symm

/-- C48: the expansion fails exactly if the list on the module is malformed, the module has no
content, or, for one of the versions, a malformed list is on a node around which everything belongs to
the version. -/
theorem C48_fails :
    (∃ e, expandModule args content = .error e) ↔
      parseVersions args = none ∨ content = none ∨
      ∃ versions items, parseVersions args = some versions ∧ content = some items ∧
        ∃ v ∈ versions, ∃ p ∈ Syn.nodesAll [] items, p.2.Malformed ∧ ∀ n ∈ p.1, n.Marked v := by
  unfold expandModule
  cases hp : parseVersions args with
  | none => exact ⟨fun _ => .inl rfl, fun _ => ⟨_, rfl⟩⟩
  | some versions =>
    cases content with
    | none => exact ⟨fun _ => .inr (.inl rfl), fun _ => ⟨_, rfl⟩⟩
    | some items =>
      dsimp only
      have hall : ∀ versions, (∃ e, expandVersions items versions = .error e) ↔
          ∃ v ∈ versions, ∃ p ∈ Syn.nodesAll [] items, p.2.Malformed ∧ ∀ n ∈ p.1, n.Marked v := by
        intro versions
        induction versions with
        | nil => simp [expandVersions]
        | cons v l ih =>
          have hv := Syn.foldAll_fails v items (around := []) (by simp)
          unfold Fails at hv
          simp only [List.mem_cons, or_and_right, exists_or, exists_eq_left]
          rw [← ih, ← hv]
          conv => lhs; unfold expandVersions
          cases Syn.foldAll v items with
          | error e => simp [isError, bind, Except.bind]
          | ok folded => cases expandVersions items l <;> simp [isError, bind, Except.bind]
      rw [hall]
      constructor
      · intro h
        exact .inr (.inr ⟨versions, items, rfl, rfl, h⟩)
      · rintro (h | h | ⟨versions', items', h1, h2, h⟩)
        · cases h
        · cases h
        · cases h1
          cases h2
          exact h

/-- The structure with two fields, of which one is marked, and a function that is marked. -/
def exampleModule : List Syn :=
  [.node .item [.other "derive(Debug)"] "struct A"
     [.node .field [] "a: u32" [], .node .field [.versioned (some ["1.4", "1.5"])] "b: u32" []],
   .node .item [.versioned (some ["1.5"])] "fn f" [.node .expr [] "1" []]]

example : expandModule (some ["1.3", "1.5"]) (some exampleModule) =
    .ok [("v1_3", [.node .item [.other "derive(Debug)"] "struct A" [.node .field [] "a: u32" []],
            .node .gone [] "" []]),
         ("v1_5", [.node .item [.other "derive(Debug)"] "struct A"
              [.node .field [] "a: u32" [], .node .field [] "b: u32" []],
            .node .item [] "fn f" [.node .expr [] "1" []]])] := by
  rfl

example : ∃ e, expandModule (some ["1.3"]) (some
    [.node .item [] "struct A" [.node .field [.versioned (some ["1"])] "a: u32" []]]) = .error e :=
  ⟨(), rfl⟩

/-- C48: a mark on an item of an `impl` or a trait has no effect: the item stays, and so does the
attribute. -/
theorem C48_impl_items_not_filtered {v : MacroVersion} {attrs : List MacroAttr} {tokens : String}
    {children cs : List Syn} (h : Syn.foldAll v children = .ok cs) :
    Syn.fold v (.node .other attrs tokens children) = .ok (some (.node .other attrs tokens cs)) := by
  unfold Syn.fold
  simp only [h, bind, Except.bind]

end Cdx.Props
