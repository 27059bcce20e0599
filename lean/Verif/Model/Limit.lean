/-!
# The limit on nesting

Components and services can contain components and services. The readers call themselves for them, so
how deep a document may be nested depends on the stack, and in JSON on the recursion limit of
`serde_json`. The model takes the number of levels that can be read as a parameter.
-/

namespace Cdx

/-- How many levels of nested components or services can be read. `serde_json` refuses a document
that is nested deeper than 127 values (`models/bom.rs` 152, `serde_json::from_reader`); the readers
of XML have the stack as their only limit (`specs/common/component.rs` 437-447, 587-593,
`specs/common/service.rs` 356-366, 484-490). -/
class ReadLimit where
  limit : Nat

end Cdx
