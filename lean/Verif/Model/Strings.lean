import Verif.Model.Types

/-!
# Strings

The Rust standard library string functions that the modelled code calls (on lists of
characters, so that they can be reasoned about), `NormalizedString::new`, hexadecimal and
UUID rendering, standard base64.
-/

namespace Cdx

/-- Unicode `White_Space`, the set trimmed by `str::trim` (used at `generator.rs` 222,
588). -/
def isWhitespace (c : Char) : Bool :=
  let n := c.toNat
  (9 ≤ n && n ≤ 13) || n == 0x20 || n == 0x85 || n == 0xA0 || n == 0x1680 ||
    (0x2000 ≤ n && n ≤ 0x200A) || n == 0x2028 || n == 0x2029 || n == 0x202F || n == 0x205F ||
    n == 0x3000

/-- `str::trim_start` on characters. -/
def trimStartChars (l : List Char) : List Char := l.dropWhile isWhitespace

/-- `str::trim` on characters (used at `generator.rs` 222, 588). -/
def trimChars (l : List Char) : List Char :=
  (trimStartChars (trimStartChars l).reverse).reverse

/-- `str::trim` (used at `generator.rs` 222, 588). -/
def trim (s : String) : String := String.ofList (trimChars s.toList)

/-- `value.replace("\r\n", " ")` (`external_models/normalized_string.rs` 38). -/
def replaceCrLf : List Char → List Char
  | [] => []
  | [c] => [c]
  | c :: d :: l => if c = '\r' ∧ d = '\n' then ' ' :: replaceCrLf l else c :: replaceCrLf (d :: l)

/-- The characters of the second replacement in `NormalizedString::new`
(`external_models/normalized_string.rs` 38). -/
def isCrLfTab (c : Char) : Bool := c == '\r' || c == '\n' || c == '\t'

/-- `.replace(['\r', '\n', '\t'], " ")` (`external_models/normalized_string.rs` 38). -/
def replaceCrLfTab (l : List Char) : List Char := l.map fun c => if isCrLfTab c then ' ' else c

/-- `NormalizedString::new` (`external_models/normalized_string.rs` 37-40). -/
def normalizedString (s : String) : NormalizedString :=
  String.ofList (replaceCrLfTab (replaceCrLf s.toList))

/-- `str::split(char)` on characters (used at `cli.rs` 130-131, `purl.rs` 100): `n`
separators give `n + 1` pieces. -/
def splitChars (sep : Char) : List Char → List (List Char)
  | [] => [[]]
  | c :: l =>
    if c = sep then [] :: splitChars sep l
    else match splitChars sep l with
      | [] => [[c]]
      | p :: ps => (c :: p) :: ps

/-- `str::split(char)` (used at `cli.rs` 130-131, `purl.rs` 100). -/
def splitStr (sep : Char) (s : String) : List String := (splitChars sep s.toList).map String.ofList

/-- `str::split_once(char)` (used at `purl.rs` 19): split at the first occurrence. -/
def splitOnceChars (sep : Char) (l : List Char) : Option (List Char × List Char) :=
  match l.dropWhile (· ≠ sep) with
  | [] => none
  | _ :: rest => some (l.takeWhile (· ≠ sep), rest)

/-- `str::strip_prefix` on characters (used at `purl.rs` 103-105). -/
def stripPrefixChars : List Char → List Char → Option (List Char)
  | [], l => some l
  | _ :: _, [] => none
  | p :: ps, c :: l => if p = c then stripPrefixChars ps l else none

/-- `str::starts_with` (used at `purl.rs` 80, `external_models/uri.rs` 83). -/
def startsWith (s p : String) : Bool := (stripPrefixChars p.toList s.toList).isSome

/-- `external_reference::Uri::from(Url)` (`models/external_reference.rs` 208-216) with
`Uri::is_bomlink` (`external_models/uri.rs` 82-84). -/
def RefUri.ofUrl (u : String) : RefUri := if startsWith u "urn:cdx" then .bomLink u else .url u

/-- `str::contains(&str)` on characters (used at `generator.rs` 281). -/
def containsChars (pat : List Char) : List Char → Bool
  | [] => pat.isEmpty
  | c :: l => (stripPrefixChars pat (c :: l)).isSome || containsChars pat l

/-- `str::contains(&str)` (used at `generator.rs` 281). -/
def containsStr (s pat : String) : Bool := containsChars pat.toList s.toList

/-- `[String]::join` (used at `generator.rs` 259, 974, `purl.rs` 119). -/
def joinStr (sep : String) (l : List String) : String :=
  String.ofList (List.intercalate sep.toList (l.map String.toList))

/-- The value of a decimal digit (`i64::from_str_radix(_, 10)`, used at `generator.rs` 532). -/
def digitVal (c : Char) : Option Nat :=
  if '0' ≤ c ∧ c ≤ '9' then some (c.toNat - '0'.toNat) else none

/-- Digits to a number, `none` on a non-digit (used at `generator.rs` 532). -/
def digitsVal : Nat → List Char → Option Nat
  | acc, [] => some acc
  | acc, c :: l => match digitVal c with
    | none => none
    | some d => digitsVal (10 * acc + d) l

/-- `i64::from_str_radix(s, 10)` (used at `generator.rs` 532): optional sign, at least one
digit, no overflow. -/
def parseI64 (s : String) : Option Int :=
  let inRange (i : Int) : Option Int :=
    if -(2 ^ 63) ≤ i ∧ i < 2 ^ 63 then some i else none
  match s.toList with
  | [] => none
  | '-' :: [] => none
  | '+' :: [] => none
  | '-' :: l => (digitsVal 0 l).bind fun n => inRange (-(n : Int))
  | '+' :: l => (digitsVal 0 l).bind fun n => inRange n
  | l => (digitsVal 0 l).bind fun n => inRange n

/-- One lower-case hexadecimal digit (`{:x}`, used at `generator.rs` 1049). -/
def hexDigit (n : Nat) : Char :=
  if n < 10 then Char.ofNat (48 + n) else Char.ofNat (87 + n)

/-- Bytes as lower-case hexadecimal (`{:x}` of `Checksum`, used at `generator.rs` 1049). -/
def hexBytes (bs : List UInt8) : List Char :=
  bs.flatMap fun b => [hexDigit (b.toNat / 16), hexDigit (b.toNat % 16)]

/-- `Display` of `uuid::Uuid` (used at `models/bom.rs` 597): 32 hexadecimal digits grouped
8-4-4-4-12. -/
def uuidDisplay (bs : Vector UInt8 16) : List Char :=
  let h (i j : Nat) := hexBytes ((bs.toList.drop i).take (j - i))
  h 0 4 ++ '-' :: h 4 6 ++ '-' :: h 6 8 ++ '-' :: h 8 10 ++ '-' :: h 10 16

/-- `UrnUuid::generate` (`models/bom.rs` 584-586, 595-599) from the 16 bytes of the UUID. -/
def urnUuidGenerate (bs : Vector UInt8 16) : String :=
  String.ofList ("urn:uuid:".toList ++ uuidDisplay bs)

/-! ## Base64 (`general_purpose::STANDARD` of the `base64` crate)

Used at `models/attached_text.rs` 44, 59. -/

/-- The standard alphabet. -/
def b64Char (n : Nat) : Char :=
  if n < 26 then Char.ofNat (65 + n)
  else if n < 52 then Char.ofNat (71 + n)
  else if n < 62 then Char.ofNat (n - 4)
  else if n = 62 then '+' else '/'

/-- Inverse of the standard alphabet. -/
def b64Val (c : Char) : Option Nat :=
  let n := c.toNat
  if 65 ≤ n ∧ n ≤ 90 then some (n - 65)
  else if 97 ≤ n ∧ n ≤ 122 then some (n - 71)
  else if 48 ≤ n ∧ n ≤ 57 then some (n + 4)
  else if c = '+' then some 62
  else if c = '/' then some 63
  else none

/-- `STANDARD.encode` (used at `models/attached_text.rs` 44). -/
def b64Encode : List UInt8 → List Char
  | [] => []
  | [a] =>
    let n := a.toNat * 16
    [b64Char (n / 64), b64Char (n % 64), '=', '=']
  | [a, b] =>
    let n := (a.toNat * 256 + b.toNat) * 4
    [b64Char (n / 4096), b64Char (n / 64 % 64), b64Char (n % 64), '=']
  | a :: b :: c :: l =>
    let n := a.toNat * 65536 + b.toNat * 256 + c.toNat
    b64Char (n / 262144) :: b64Char (n / 4096 % 64) :: b64Char (n / 64 % 64) ::
      b64Char (n % 64) :: b64Encode l

/-- `STANDARD.decode` (used at `models/attached_text.rs` 59): canonical padding required,
trailing bits must be zero, no whitespace. -/
def b64Decode : List Char → Option (List UInt8)
  | [] => some []
  | [a, b, '=', '='] => do
    let x ← b64Val a
    let y ← b64Val b
    let n := x * 64 + y
    if n % 16 = 0 then some [UInt8.ofNat (n / 16)] else none
  | [a, b, c, '='] => do
    let x ← b64Val a
    let y ← b64Val b
    let z ← b64Val c
    let n := x * 4096 + y * 64 + z
    if n % 4 = 0 then some [UInt8.ofNat (n / 1024), UInt8.ofNat (n / 4 % 256)] else none
  | a :: b :: c :: d :: l => do
    let x ← b64Val a
    let y ← b64Val b
    let z ← b64Val c
    let w ← b64Val d
    let n := x * 262144 + y * 4096 + z * 64 + w
    let rest ← b64Decode l
    some (UInt8.ofNat (n / 65536) :: UInt8.ofNat (n / 256 % 256) :: UInt8.ofNat (n % 256) :: rest)
  | _ => none

/-- `AttachedText::new` (`models/attached_text.rs` 35-47). -/
def attachedText (contentType : Option NormalizedString) (content : List UInt8) : AttachedText where
  contentType := contentType
  encoding := some .base64
  content := String.ofList (b64Encode content)

/-- The bytes of a `String` (`AsRef<[u8]>` at `models/attached_text.rs` 40). -/
def utf8Bytes (s : String) : List UInt8 := s.toUTF8.data.toList

end Cdx
