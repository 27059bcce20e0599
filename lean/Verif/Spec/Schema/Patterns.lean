import Verif.Spec.Schema.Syntax

/-!
# Specification: the patterns of the JSON schemas

Translations of the values of `pattern` in `cyclonedx-bom/test-utils/schema`.
-/

namespace Cdx.Spec

/-- `^urn:uuid:[0-9a-f]{8}-[0-9a-f]{4}-[0-9a-f]{4}-[0-9a-f]{4}-[0-9a-f]{12}$`. -/
def patternSerial : Pattern :=
  let h := Re.cls isLowerHex
  let d := Re.chr '-'
  [⟨true, .cat [.lit "urn:uuid:", .cat [.rep 8 h, d, .rep 4 h, d, .rep 4 h, d, .rep 4 h, d, .rep 12 h]],
    true⟩]

/-- `^([a-fA-F0-9]{32}|[a-fA-F0-9]{40}|[a-fA-F0-9]{64}|[a-fA-F0-9]{96}|[a-fA-F0-9]{128})$`. -/
def patternHash : Pattern :=
  let h := Re.cls isHex
  [⟨true, .alt (.rep 32 h) (.alt (.rep 40 h) (.alt (.rep 64 h) (.alt (.rep 96 h) (.rep 128 h)))),
    true⟩]

/-- `^[-+a-z0-9.]+/[-+a-z0-9.]+$`. -/
def patternMime : Pattern :=
  [⟨true, .cat [.plus (.cls isMimeChar), .chr '/', .plus (.cls isMimeChar)], true⟩]

/-- `^([a-z]{2})(-[A-Z]{2})?$`. -/
def patternLocale : Pattern :=
  [⟨true, .cat [.rep 2 (.cls isLowerC), .opt (.cat [.chr '-', .rep 2 (.cls isUpperC)])], true⟩]

/-- `^urn:cdx:[0-9a-f]{8}-[0-9a-f]{4}-[0-9a-f]{4}-[0-9a-f]{4}-[0-9a-f]{12}/[1-9][0-9]*$`. -/
def patternLinkDocument : Pattern :=
  let h := Re.cls isLowerHex
  let d := Re.chr '-'
  [⟨true, .cat [.lit "urn:cdx:", .cat [.rep 8 h, d, .rep 4 h, d, .rep 4 h, d, .rep 4 h, d, .rep 12 h],
    .chr '/', .cls (fun c => '1'.toNat ≤ c.toNat && c.toNat ≤ '9'.toNat), .star (.cls isDigitC)],
    true⟩]

/-- `^urn:cdx:[0-9a-f]{8}-[0-9a-f]{4}-[0-9a-f]{4}-[0-9a-f]{4}-[0-9a-f]{12}/[1-9][0-9]*#.+$`. -/
def patternLinkElement : Pattern :=
  let h := Re.cls isLowerHex
  let d := Re.chr '-'
  [⟨true, .cat [.lit "urn:cdx:", .cat [.rep 8 h, d, .rep 4 h, d, .rep 4 h, d, .rep 4 h, d, .rep 12 h],
    .chr '/', .cls (fun c => '1'.toNat ≤ c.toNat && c.toNat ≤ '9'.toNat), .star (.cls isDigitC),
    .chr '#', .plus .dot], true⟩]

end Cdx.Spec
