import Verif.Model.Strings

/-!
# The `versioned` attribute (`cyclonedx-bom-macros/src/lib.rs`)

The attribute duplicates a module for several versions of the format and drops, in each copy, what
is marked for other versions. The syntax trees of the `syn` crate are modelled by one kind of node:
what matters is where the macro looks for its attribute and what it does with the node then.
-/

namespace Cdx

/-- `Version` (`lib.rs` 15-19). -/
structure MacroVersion where
  major : Nat
  minor : Nat
  deriving DecidableEq, Repr

/-- `str::parse::<usize>` (`lib.rs` 30-31) on a 64-bit machine: an optional plus sign, digits, less
than 2⁶⁴. -/
def parseUsize (s : List Char) : Option Nat :=
  let ds := if s.head? = some '+' then s.tail else s
  if ds.isEmpty || !ds.all Char.isDigit then none
  else
    let n := Nat.ofDigitChars 10 ds 0
    if n < 2 ^ 64 then some n else none

/-- `Version::from_str` (`lib.rs` 21-34). -/
def MacroVersion.parse (s : String) : Option MacroVersion := do
  let (a, b) ← splitOnceChars '.' s.toList
  let major ← parseUsize a
  let minor ← parseUsize b
  some ⟨major, minor⟩

/-- `Version::as_ident` (`lib.rs` 36-43). -/
def MacroVersion.ident (v : MacroVersion) : String :=
  "v" ++ toString v.major ++ "_" ++ toString v.minor

/-- `syn::Attribute`, as far as the macro looks at it (`lib.rs` 77-93): `versioned` with its argument,
a list of string literals if it can be parsed as one, or anything else. -/
inductive MacroAttr where
  | versioned (args : Option (List String))
  | other (tokens : String)
  deriving DecidableEq, Repr

/-- The parser of the attribute's argument (`lib.rs` 49-58). -/
def parseVersions (args : Option (List String)) : Option (List MacroVersion) :=
  args.bind (List.mapM MacroVersion.parse)

/-- What the macro does with a node. -/
inductive SynKind where
  /-- `Item`, except `Item::Verbatim` (`lib.rs` 196-219). -/
  | item
  /-- `Stmt::Local` and `Stmt::Macro` (`lib.rs` 120-130). -/
  | stmt
  /-- `Expr`, except `Expr::Verbatim` (`lib.rs` 132-178). -/
  | expr
  /-- A field of a structure or variant (`lib.rs` 98-118). -/
  | field
  /-- A field in a structure expression (`lib.rs` 180-188). -/
  | fieldValue
  /-- An arm of a match (`lib.rs` 190-194). -/
  | arm
  /-- A variant of an enumeration (`lib.rs` 221-229). -/
  | variant
  /-- All other nodes, which `syn::fold` goes through without a look at their attributes: blocks,
  patterns, types, items of an `impl` or a trait. -/
  | other
  /-- The empty item, statement or block that stands for what was dropped (`lib.rs` 125, 173, 214). -/
  | gone
  deriving DecidableEq, Repr

/-- A syntax tree. `tokens` is what the node has besides attributes and children. -/
inductive Syn where
  | node (kind : SynKind) (attrs : List MacroAttr) (tokens : String) (children : List Syn)

/-- `VersionFilter::is_active` (`lib.rs` 74-96): whether the node belongs to the version, and its
attributes without `versioned`. If there are several, the last one decides. An argument that cannot
be parsed makes the whole expansion fail (`lib.rs` 83-86, 267-269); the message is left out. -/
def isActive (v : MacroVersion) : Bool → List MacroAttr → Except Unit (Bool × List MacroAttr)
  | found, [] => .ok (found, [])
  | found, .versioned args :: l =>
    match parseVersions args with
    | some vs => isActive v (vs.contains v) l
    | none => .error ()
  | found, .other s :: l => do
    let (found, l) ← isActive v found l
    .ok (found, .other s :: l)

mutual
/-- `VersionFilter` as a `Fold` (`lib.rs` 109-230): items, statements and expressions of other
versions are replaced by empty ones; fields, field values, arms and variants of other versions are
removed. Fields are not gone into. -/
def Syn.fold (v : MacroVersion) : Syn → Except Unit (Option Syn)
  | .node kind attrs tokens children =>
    match kind with
    | .item | .stmt | .expr => do
      let (found, attrs) ← isActive v true attrs
      if found then
        let children ← Syn.foldAll v children
        .ok (some (.node kind attrs tokens children))
      else .ok (some (.node .gone [] "" []))
    | .field => do
      let (found, attrs) ← isActive v true attrs
      .ok (if found then some (.node kind attrs tokens children) else none)
    | .fieldValue | .arm | .variant => do
      let (found, attrs) ← isActive v true attrs
      if found then
        let children ← Syn.foldAll v children
        .ok (some (.node kind attrs tokens children))
      else .ok none
    | .other => do
      let children ← Syn.foldAll v children
      .ok (some (.node kind attrs tokens children))
    | .gone => .ok (some (.node kind attrs tokens children))
termination_by structural x => x

/-- The same on the children of a node: `filter_map`, `retain_mut` and the default traversal. -/
def Syn.foldAll (v : MacroVersion) : List Syn → Except Unit (List Syn)
  | [] => .ok []
  | x :: l => do
    let x ← Syn.fold v x
    let l ← Syn.foldAll v l
    .ok (match x with | some x => x :: l | none => l)
termination_by structural x => x
end

/-- The modules for a list of versions (`lib.rs` 250-279): name and items. -/
def expandVersions (items : List Syn) : List MacroVersion → Except Unit (List (String × List Syn))
  | [] => .ok []
  | v :: l => do
    let folded ← Syn.foldAll v items
    let modules ← expandVersions items l
    .ok ((v.ident, folded) :: modules)

/-- `helper` (`lib.rs` 232-280) after parsing: `args` are the string literals of the attribute on the
module, `content` are its items, unless it has none in the file. The visibility of the module, which
is copied, is left out. -/
def expandModule (args : Option (List String)) (content : Option (List Syn)) :
    Except Unit (List (String × List Syn)) :=
  match parseVersions args with
  | none => .error ()
  | some versions =>
    match content with
    | none => .error ()
    | some items => expandVersions items versions

end Cdx
