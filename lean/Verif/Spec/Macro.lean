import Verif.Model.Macro

/-!
# What `versioned` is meant to do

Written without the macro's traversal: list all nodes of a tree, each with the nodes around it, and
keep those that no version list on the way excludes.
-/

namespace Cdx

/-- A version list: the argument of `versioned`, if it is a list of versions. -/
def MacroAttr.versions : MacroAttr → Option (List MacroVersion)
  | .versioned args => parseVersions args
  | .other _ => none

/-- The attributes other than `versioned`. -/
def otherAttrs (l : List MacroAttr) : List MacroAttr :=
  l.filter fun a => match a with | .versioned _ => false | .other _ => true

/-- `versioned` with an argument that is not a list of versions. -/
def MacroAttr.Malformed (a : MacroAttr) : Prop := ∃ args, a = .versioned args ∧ parseVersions args = none

/-- A node is marked for a version: it has no version list, or its list (the last one, if there are
several) contains the version. Nodes of kind `other` are not looked at. -/
def Syn.Marked (v : MacroVersion) : Syn → Prop
  | .node kind attrs _ _ =>
    kind = .other ∨ ∀ vs, (attrs.filterMap MacroAttr.versions).getLast? = some vs → v ∈ vs

/-- A node has a malformed version list where the macro looks at it. -/
def Syn.Malformed : Syn → Prop
  | .node kind attrs _ _ => kind ≠ .other ∧ ∃ a ∈ attrs, a.Malformed

/-- A node without its children: depth, kind, the attributes other than `versioned` (nodes of kind
`other` keep all), tokens. A field comes with its content, which is copied. -/
structure SynLine where
  depth : Nat
  kind : SynKind
  attrs : List MacroAttr
  tokens : String
  content : List Syn

/-- The line for a node. -/
def Syn.line (depth : Nat) : Syn → SynLine
  | .node kind attrs tokens children =>
    ⟨depth, kind, if kind = .other then attrs else otherAttrs attrs, tokens,
      if kind = .field then children else []⟩

mutual
/-- All nodes of a tree in the order of the text, each with the nodes around it. Fields are not gone
into, and what stands for dropped code is left out. -/
def Syn.nodes (around : List Syn) : Syn → List (List Syn × Syn)
  | .node kind attrs tokens children =>
    if kind = .gone then []
    else (around, .node kind attrs tokens children) ::
      if kind = .field then []
      else Syn.nodesAll (.node kind attrs tokens children :: around) children
termination_by structural x => x

/-- The same for a list of trees. -/
def Syn.nodesAll (around : List Syn) : List Syn → List (List Syn × Syn)
  | [] => []
  | x :: l => Syn.nodes around x ++ Syn.nodesAll around l
termination_by structural x => x
end

/-- A tree as a list of lines, which determine it up to what stands for dropped code. -/
def Syn.lines (l : List Syn) : List SynLine := (Syn.nodesAll [] l).map fun p => p.2.line p.1.length

open Classical in
/-- The lines of those nodes that are marked for a version, together with all nodes around them. -/
noncomputable def Syn.linesFor (v : MacroVersion) (l : List Syn) : List SynLine :=
  ((Syn.nodesAll [] l).filter fun p => ∀ n ∈ p.2 :: p.1, n.Marked v).map fun p => p.2.line p.1.length

end Cdx
