import Verif.Spec.Checks

/-!
# Specification: normalized strings, numbers and CPE names
-/

namespace Cdx.Spec

/-- `Normalizes text result`: `result` is `text` with the pair CR LF replaced by one space and
every other CR, LF and TAB replaced by a space. -/
inductive Normalizes : List Char → List Char → Prop
  | nil : Normalizes [] []
  | crlf {l m : List Char} : Normalizes l m → Normalizes ('\r' :: '\n' :: l) (' ' :: m)
  | cr {l m : List Char} : l.head? ≠ some '\n' → Normalizes l m → Normalizes ('\r' :: l) (' ' :: m)
  | lf {l m : List Char} : Normalizes l m → Normalizes ('\n' :: l) (' ' :: m)
  | tab {l m : List Char} : Normalizes l m → Normalizes ('\t' :: l) (' ' :: m)
  | other {c : Char} {l m : List Char} : c ≠ '\r' → c ≠ '\n' → c ≠ '\t' → Normalizes l m →
      Normalizes (c :: l) (c :: m)

/-- The value of a decimal digit. -/
def digitValue (c : Char) : Nat := c.toNat - '0'.toNat

/-- The value of a decimal numeral, most significant digit first. -/
def decimalValue (l : List Char) : Nat :=
  (l.zipIdx.map fun p => digitValue p.1 * 10 ^ (l.length - 1 - p.2)).sum

/-- `SignedDecimal text i`: `text` is a non-empty decimal numeral with an optional sign, of
value `i`. -/
def SignedDecimal (l : List Char) (i : Int) : Prop :=
  ∃ sign digits, l = sign ++ digits ∧ digits ≠ [] ∧ (∀ c ∈ digits, Digit c) ∧
    ((sign = [] ∨ sign = ['+']) ∧ i = decimalValue digits ∨
      sign = ['-'] ∧ i = -(decimalValue digits : Int))

/-- A letter. -/
def Letter (c : Char) : Prop :=
  c ∈ "abcdefghijklmnopqrstuvwxyzABCDEFGHIJKLMNOPQRSTUVWXYZ".toList

/-- Wildcards at the start or end of a CPE attribute: question marks or one asterisk. -/
def CpeWild (l : List Char) : Prop := (∀ c ∈ l, c = '?') ∨ l = ['*']

/-- A character of a CPE attribute: a letter, a digit, `-`, `.`, `_` or an escaped special
character. -/
def CpeChar (l : List Char) : Prop :=
  (∃ c, l = [c] ∧ (Letter c ∨ Digit c ∨ c ∈ "-._".toList)) ∨
    ∃ c, l = ['\\', c] ∧ c ∈ "\\*?!\"#$%&'()+,/:;<=>@[]^`{|}~".toList

/-- An attribute of a CPE 2.3 name: `*`, `-`, or characters with wildcards around them. -/
def CpeAttribute (l : List Char) : Prop :=
  l = ['*'] ∨ l = ['-'] ∨
    ∃ w cs w', CpeWild w ∧ CpeWild w' ∧ cs ≠ [] ∧ (∀ x ∈ cs, CpeChar x) ∧ l = w ++ cs.flatten ++ w'

/-- The language of a CPE 2.3 name: `*`, `-`, or a language tag such as `en` or `en-US`. -/
def CpeLanguage (l : List Char) : Prop :=
  l = ['*'] ∨ l = ['-'] ∨
    ∃ a r, (Exactly 2 Letter a ∨ Exactly 3 Letter a) ∧
      (r = [] ∨ ∃ b, r = '-' :: b ∧ (Exactly 2 Letter b ∨ Exactly 3 Digit b)) ∧ l = a ++ r

/-- A CPE 2.3 name: the part, five attributes, the language and four attributes. -/
def IsCpe23 (l : List Char) : Prop :=
  ∃ (part : Char) (before : List (List Char)) (lang : List Char) (after : List (List Char)),
    part ∈ "aho*-".toList ∧
    before.length = 5 ∧ (∀ x ∈ before, CpeAttribute x) ∧ CpeLanguage lang ∧
    after.length = 4 ∧ (∀ x ∈ after, CpeAttribute x) ∧
    l = "cpe:2.3:".toList ++ part :: (before.flatMap (':' :: ·) ++ ':' :: lang ++
      after.flatMap (':' :: ·))

/-- The start of a CPE 2.2 URI, `cpe:/` with `p` and `e` in either case. -/
def Cpe22Start (l : List Char) : Prop :=
  ∃ p e, p ∈ "pP".toList ∧ e ∈ "eE".toList ∧ l = ['c', p, e, ':', '/']

/-- `part` occurs in `text`. -/
def Contains (text : List Char) (P : List Char → Prop) : Prop :=
  ∃ before part after, P part ∧ text = before ++ part ++ after

end Cdx.Spec
