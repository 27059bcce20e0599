import Verif.Spec.Xml
import Verif.Model.Format.Bom

/-!
# Specification: which XML documents conform to the format

The XML schema of the versions 1.3, 1.4 and 1.5 of the format as a table: for each type of element its
attributes and its content, which is a text or child elements in a given order, each with a type and a
number of occurrences.  The table is written from the published format, and is checked with
`scripts/xsd/check.py` against the XML documents under `cyclonedx-bom/tests/spec`: every valid document
follows it.

What the table leaves out, so that more documents conform: the allowed values of texts other than
booleans and numbers, uniqueness of identifiers, and the namespaces of the elements below the root.
What it leaves out, so that fewer conform: elements of other namespaces, which the format allows at the
end of many elements. White space around texts and between elements is not there: the XML library is
configured to drop it before this library sees it; white space around numbers in attributes, which the
format allows, is not covered.
-/

namespace Cdx.Spec

/-- The types of texts: any text, or a text that has the form of a boolean, an integer or a decimal
number. -/
inductive TextType where
  | string | boolean | integer | decimal
  deriving DecidableEq, Repr

/-- The sign of a number: none, plus or minus. -/
def IsSign (l : List Char) : Prop := l = [] ∨ l = ['+'] ∨ l = ['-']

/-- Decimal digits. -/
def AreDigits (l : List Char) : Prop := ∀ c ∈ l, c.isDigit = true

/-- The texts of a type. -/
def TextType.Admits : TextType → String → Prop
  | .string, _ => True
  | .boolean, s => s = "true" ∨ s = "false" ∨ s = "1" ∨ s = "0"
  | .integer, s => ∃ sign digits, IsSign sign ∧ digits ≠ [] ∧ AreDigits digits ∧
      s.toList = sign ++ digits
  | .decimal, s => ∃ sign whole part, IsSign sign ∧ AreDigits whole ∧ AreDigits part ∧
      (whole ≠ [] ∧ s.toList = sign ++ whole ∨
        (whole ≠ [] ∨ part ≠ []) ∧ s.toList = sign ++ whole ++ '.' :: part)

