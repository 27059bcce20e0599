import Verif.Spec.Schema
import Verif.Model.Purl

/-!
# Specification: assumptions under which generated SBOMs conform to the JSON schema
-/

namespace Cdx.Spec

/-- What the libraries that the generator calls accept or print has the format of the same name in
the schema: URIs are IRI references, mail addresses are internationalized mail addresses, and the
points in time are formatted as RFC 3339 asks. -/
structure FormatsAgree (env : Env) (F : Formats) : Prop where
  uri : ∀ u, env.uriValid u = true → F "iri-reference" u
  mail : ∀ e, env.emailValid e = true → F "idn-email" (normalizedString e)
  dateTime : ∀ d, env.dateTimeValid d = true → F "date-time" d
  now : ∀ d, env.now = some d → F "date-time" d

/-- What cargo guarantees about the output of `cargo metadata` beside `MetadataOk`: no package id is
empty, and a package has each dependency only once. -/
structure PlainIds (md : CargoMetadata) (nodes : List Node) : Prop where
  ids : ∀ p ∈ md.packages, p.id ≠ ""
  once : ∀ n ∈ nodes, (n.deps.map (·.pkg)).Nodup

end Cdx.Spec
