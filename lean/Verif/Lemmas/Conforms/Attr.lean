import Lean.LabelAttribute

/-!
# The lemmas used to prove that an element conforms to the JSON schema
-/

/-- Lemmas that prove that a value is accepted by a definition of the schema. -/
register_label_attr schema_fits
