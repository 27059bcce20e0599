/-!
# Regular expressions

The `regex` crate (1.10.2) is modelled by its language semantics: `Re` is the syntax of the
operators the code base uses, `Re.matches` decides whether a whole character list belongs to
the language (by Brzozowski derivatives; `Lemmas/Regex.lean` proves it equal to the usual
inductive semantics), and a `Pattern` is a top-level alternation of branches that may carry
the anchors `^` and `$`. `Regex::is_match` searches for a match anywhere, so a branch without
an anchor may be preceded or followed by any characters. The patterns have been translated by
hand; each cites the literal it translates.
-/

namespace Cdx

/-- Syntax of regular expressions (operators of the literals in `models/bom.rs` 616,
`models/component.rs` 272, 309, `models/hash.rs` 112, `models/external_reference.rs` 237,
`models/vulnerability_target.rs` 144). `zero` matches nothing (needed by derivatives). -/
inductive Re where
  | zero
  | eps
  | cls (p : Char → Bool)
  | alt (a b : Re)
  | seq (a b : Re)
  | star (a : Re)

/-- Whether the empty string matches (`regex` crate, `Regex::is_match`, as used in
`models/bom.rs` 619). -/
def Re.nullable : Re → Bool
  | .zero => false
  | .eps => true
  | .cls _ => false
  | .alt a b => a.nullable || b.nullable
  | .seq a b => a.nullable && b.nullable
  | .star _ => true

/-- Brzozowski derivative (`regex` crate, `Regex::is_match`, as used in `models/bom.rs` 619). -/
def Re.deriv (c : Char) : Re → Re
  | .zero => .zero
  | .eps => .zero
  | .cls p => if p c then .eps else .zero
  | .alt a b => .alt (a.deriv c) (b.deriv c)
  | .seq a b =>
    if a.nullable then .alt (.seq (a.deriv c) b) (b.deriv c) else .seq (a.deriv c) b
  | .star a => .seq (a.deriv c) (.star a)

/-- Whole-string matching (`regex` crate, `Regex::is_match`, as used in `models/bom.rs` 619). -/
def Re.matches : Re → List Char → Bool
  | r, [] => r.nullable
  | r, c :: cs => (r.deriv c).matches cs

/-- A literal character. -/
def Re.chr (c : Char) : Re := .cls (· == c)

/-- A literal string. -/
def Re.lit (s : String) : Re := s.toList.foldr (fun c r => .seq (.chr c) r) .eps

/-- `r{n}`. -/
def Re.rep : Nat → Re → Re
  | 0, _ => .eps
  | n + 1, r => .seq r (.rep n r)

/-- `r?`. -/
def Re.opt (r : Re) : Re := .alt r .eps

/-- `r{0,n}`. -/
def Re.upTo : Nat → Re → Re
  | 0, _ => .eps
  | n + 1, r => .opt (.seq r (.upTo n r))

/-- `r+`. -/
def Re.plus (r : Re) : Re := .seq r (.star r)

/-- `.`: any character except a line feed. -/
def Re.dot : Re := .cls (· != '\n')

/-- Concatenation of several expressions. -/
def Re.cat : List Re → Re
  | [] => .eps
  | [r] => r
  | r :: rs => .seq r (.cat rs)

/-- One branch of a top-level alternation, with its anchors. -/
structure Branch where
  anchoredStart : Bool
  re : Re
  anchoredEnd : Bool

/-- The language of whole haystacks in which a branch is found: anything before an unanchored
start and after an unanchored end. -/
def Branch.full (b : Branch) : Re :=
  let any := Re.star (.cls fun _ => true)
  .seq (if b.anchoredStart then .eps else any) (.seq b.re (if b.anchoredEnd then .eps else any))

/-- A compiled regular expression. -/
abbrev Pattern := List Branch

/-- `Regex::is_match` (`models/bom.rs` 619, `models/component.rs` 274, 313, ...). -/
def Pattern.isMatch (p : Pattern) (s : String) : Bool := p.any fun b => b.full.matches s.toList

/-- `[0-9]`. -/
def isDigitC (c : Char) : Bool := '0'.toNat ≤ c.toNat && c.toNat ≤ '9'.toNat
/-- `[a-z]`. -/
def isLowerC (c : Char) : Bool := 'a'.toNat ≤ c.toNat && c.toNat ≤ 'z'.toNat
/-- `[A-Z]`. -/
def isUpperC (c : Char) : Bool := 'A'.toNat ≤ c.toNat && c.toNat ≤ 'Z'.toNat
/-- `[0-9a-f]` (`models/bom.rs` 616, `models/external_reference.rs` 237). -/
def isLowerHex (c : Char) : Bool := isDigitC c || ('a'.toNat ≤ c.toNat && c.toNat ≤ 'f'.toNat)
/-- `[a-fA-F0-9]` (`models/hash.rs` 112). -/
def isHex (c : Char) : Bool := isLowerHex c || ('A'.toNat ≤ c.toNat && c.toNat ≤ 'F'.toNat)

/-- `[0-9a-f]{8}-[0-9a-f]{4}-[0-9a-f]{4}-[0-9a-f]{4}-[0-9a-f]{12}` (`models/bom.rs` 616,
`models/external_reference.rs` 237). -/
def reUuid : Re :=
  let h := Re.cls isLowerHex
  let d := Re.chr '-'
  .cat [.rep 8 h, d, .rep 4 h, d, .rep 4 h, d, .rep 4 h, d, .rep 12 h]

/-- The pattern of `matches_urn_uuid_regex` (`models/bom.rs` 616). -/
def patUrnUuid : Pattern := [⟨true, .cat [.lit "urn:uuid:", reUuid], true⟩]

/-- The pattern of `validate_bom_link` (`models/external_reference.rs` 237). -/
def patBomLink : Pattern :=
  [⟨true, .cat [.lit "urn:cdx:", reUuid, .chr '/',
      .cls (fun c => '1'.toNat ≤ c.toNat && c.toNat ≤ '9'.toNat), .star (.cls isDigitC),
      .opt (.cat [.chr '#', .plus .dot])], true⟩]

/-- `[-+a-z0-9.]` (`models/component.rs` 272). -/
def isMimeChar (c : Char) : Bool :=
  c == '-' || c == '+' || isLowerC c || isDigitC c || c == '.'

/-- The pattern of `validate_mime_type` (`models/component.rs` 272). -/
def patMime : Pattern :=
  [⟨true, .cat [.plus (.cls isMimeChar), .chr '/', .plus (.cls isMimeChar)], true⟩]

/-- The pattern of `validate_hash_value` (`models/hash.rs` 112):
`^(..{32})|(..{40})|(..{64})|(..{96})|(..{128})$`, where `|` binds weaker than the anchors. -/
def patHash : Pattern :=
  let h := Re.cls isHex
  [⟨true, .rep 32 h, false⟩, ⟨false, .rep 40 h, false⟩, ⟨false, .rep 64 h, false⟩,
    ⟨false, .rep 96 h, false⟩, ⟨false, .rep 128 h, true⟩]

/-- The pattern of `matches_purl_version_range` (`models/vulnerability_target.rs` 144). -/
def patVers : Pattern := [⟨true, .cat [.lit "vers:", .star .dot], true⟩]

/-- Any of the characters of a string. -/
def Re.oneOf (s : String) : Re := .cls fun c => s.toList.contains c

/-- `[a-zA-Z]` (`models/component.rs` 309). -/
def isAlphaC (c : Char) : Bool := isLowerC c || isUpperC c

/-- The component `(:(((\?*|\*?)([a-zA-Z0-9\-\._]|(\\[...]))+(\?*|\*?))|[\*\-]))` of the CPE
pattern (`models/component.rs` 309). -/
def reCpeAttr : Re :=
  let wild := Re.alt (.star (.chr '?')) (.opt (.chr '*'))
  let plain := Re.cls fun c => isAlphaC c || isDigitC c || c == '-' || c == '.' || c == '_'
  let quoted := Re.seq (.chr '\\') (.oneOf "\\*?!\"#$%&'()+,/:;<=>@[]^`{|}~")
  .seq (.chr ':') (.alt (.cat [wild, .plus (.alt plain quoted), wild]) (.oneOf "*-"))

/-- The language component of the CPE pattern (`models/component.rs` 309). -/
def reCpeLang : Re :=
  let al := Re.cls isAlphaC
  .seq (.chr ':') (.alt
    (.seq (.alt (.rep 2 al) (.rep 3 al))
      (.opt (.seq (.chr '-') (.alt (.rep 2 al) (.rep 3 (.cls isDigitC))))))
    (.oneOf "*-"))

/-- First alternative of the CPE pattern (`models/component.rs` 309). -/
def reCpe22 : Re :=
  .cat [.oneOf "c", .oneOf "pP", .oneOf "eE", .lit ":/", .opt (.oneOf "AHOaho"),
    .upTo 6 (.seq (.chr ':') (.star (.cls fun c =>
      isUpperC c || isLowerC c || isDigitC c || c == '.' || c == '_' || c == '-' || c == '~' ||
        c == '%')))]

/-- Second alternative of the CPE pattern (`models/component.rs` 309). -/
def reCpe23 : Re :=
  .cat [.lit "cpe:2.3:", .oneOf "aho*-", .rep 5 reCpeAttr, reCpeLang, .rep 4 reCpeAttr]

/-- The pattern of `validate_cpe` (`models/component.rs` 309), which has no anchors. -/
def patCpe : Pattern := [⟨false, reCpe22, false⟩, ⟨false, reCpe23, false⟩]

end Cdx
