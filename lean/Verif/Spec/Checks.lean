/-!
# Specification: text formats

What the single-value checks are about, stated without regular expressions.
-/

namespace Cdx.Spec

/-- No carriage return, line feed or tab. -/
def NoBreaks (s : String) : Prop := '\r' ∉ s.toList ∧ '\n' ∉ s.toList ∧ '\t' ∉ s.toList

/-- A lower-case hexadecimal digit. -/
def LowerHex (c : Char) : Prop := c ∈ "0123456789abcdef".toList

/-- A hexadecimal digit. -/
def Hex (c : Char) : Prop := c ∈ "0123456789abcdefABCDEF".toList

/-- A decimal digit. -/
def Digit (c : Char) : Prop := c ∈ "0123456789".toList

/-- `n` characters, all with property `P`. -/
def Exactly (n : Nat) (P : Char → Prop) (l : List Char) : Prop := l.length = n ∧ ∀ c ∈ l, P c

/-- A lower-case UUID in the 8-4-4-4-12 notation. -/
def IsUuid (l : List Char) : Prop :=
  ∃ a b c d e, Exactly 8 LowerHex a ∧ Exactly 4 LowerHex b ∧ Exactly 4 LowerHex c ∧
    Exactly 4 LowerHex d ∧ Exactly 12 LowerHex e ∧
    l = a ++ '-' :: (b ++ '-' :: (c ++ '-' :: (d ++ '-' :: e)))

/-- `urn:uuid:` and a UUID. -/
def IsUrnUuid (s : String) : Prop := ∃ u, IsUuid u ∧ s.toList = "urn:uuid:".toList ++ u

/-- A positive decimal number without leading zero. -/
def IsPositive (l : List Char) : Prop := (∀ c ∈ l, Digit c) ∧ l ≠ [] ∧ l.head? ≠ some '0'

/-- `urn:cdx:<uuid>/<version>` with an optional `#<ref>`, where the reference is not empty and
has no line feed. -/
def IsBomLink (s : String) : Prop :=
  ∃ u n f, IsUuid u ∧ IsPositive n ∧
    (f = [] ∨ ∃ r, f = '#' :: r ∧ r ≠ [] ∧ '\n' ∉ r) ∧
    s.toList = "urn:cdx:".toList ++ u ++ '/' :: n ++ f

/-- A character of a media type as the code accepts it: lower-case letters, digits, `-`, `+`,
`.`. -/
def MimeChar (c : Char) : Prop := c ∈ "abcdefghijklmnopqrstuvwxyz0123456789-+.".toList

/-- Two non-empty parts separated by a slash. -/
def IsMime (s : String) : Prop :=
  ∃ a b, a ≠ [] ∧ b ≠ [] ∧ (∀ c ∈ a, MimeChar c) ∧ (∀ c ∈ b, MimeChar c) ∧
    s.toList = a ++ '/' :: b

/-- The intended format of hash values: 32, 40, 64, 96 or 128 hexadecimal digits. -/
def IsHash (s : String) : Prop :=
  (∀ c ∈ s.toList, Hex c) ∧ s.toList.length ∈ [32, 40, 64, 96, 128]

/-- What the code accepts instead: 32 hexadecimal digits at the start, or 40 in a row
anywhere. -/
def StartsOrContainsHex (s : String) : Prop :=
  (∃ h rest, Exactly 32 Hex h ∧ s.toList = h ++ rest) ∨
    ∃ pre h rest, Exactly 40 Hex h ∧ s.toList = pre ++ h ++ rest

/-- The alphabet of RFC 4648, section 4. -/
def base64Alphabet : String := "ABCDEFGHIJKLMNOPQRSTUVWXYZabcdefghijklmnopqrstuvwxyz0123456789+/"

/-- The character for a six-bit number. -/
def Sextet (n : Nat) (c : Char) : Prop := base64Alphabet.toList[n]? = some c

/-- `IsBase64 bytes text`: `text` is the padded base64 encoding of `bytes` (RFC 4648, section
4): 24-bit groups as four six-bit numbers, with zero bits and `=` added at the end. -/
inductive IsBase64 : List UInt8 → List Char → Prop
  | nil : IsBase64 [] []
  | one {a : UInt8} {w x : Nat} {cw cx : Char} : Sextet w cw → Sextet x cx →
      a.toNat * 16 = w * 64 + x → IsBase64 [a] [cw, cx, '=', '=']
  | two {a b : UInt8} {w x y : Nat} {cw cx cy : Char} : Sextet w cw → Sextet x cx → Sextet y cy →
      (a.toNat * 256 + b.toNat) * 4 = (w * 64 + x) * 64 + y → IsBase64 [a, b] [cw, cx, cy, '=']
  | three {a b c : UInt8} {w x y z : Nat} {cw cx cy cz : Char} {bs : List UInt8} {cs : List Char} :
      Sextet w cw → Sextet x cx → Sextet y cy → Sextet z cz →
      (a.toNat * 256 + b.toNat) * 256 + c.toNat = ((w * 64 + x) * 64 + y) * 64 + z →
      IsBase64 bs cs → IsBase64 (a :: b :: c :: bs) (cw :: cx :: cy :: cz :: cs)

/-- The value of a 32-bit IEEE 754 number times 2^149, an integer for every finite number: sign,
then `mantissa` for exponent 0 and `(2^23 + mantissa) * 2^(exponent - 1)` otherwise. `none` for
infinities and NaN. -/
def f32Value (bits : BitVec 32) : Option Int :=
  let n : Nat := bits.toNat
  let sign : Int := if n < 2 ^ 31 then 1 else -1
  let exponent : Nat := n / 2 ^ 23 % 2 ^ 8
  let mantissa : Nat := n % 2 ^ 23
  let magnitude : Nat := if exponent = 0 then mantissa else (2 ^ 23 + mantissa) * 2 ^ (exponent - 1)
  if exponent = 255 then none else some (sign * magnitude)

/-- A 32-bit IEEE 754 number below zero: a negative finite number or the negative infinity. -/
def Negative (bits : BitVec 32) : Prop :=
  (∃ x, f32Value bits = some x ∧ x < 0) ∨ bits = 0xff800000

/-- The number one, on the scale of `f32Value`. -/
def f32One : Int := 2 ^ 149

end Cdx.Spec
