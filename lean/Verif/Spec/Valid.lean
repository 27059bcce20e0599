import Verif.Model.Purl
import Verif.Model.Checks
import Verif.Spec.Checks
import Verif.Spec.Bom

/-!
# Specification: assumptions under which generated SBOMs are valid
-/

namespace Cdx.Spec

/-- The generator and the validation call the same parsers of URIs, dates, SPDX expressions and
package URLs. -/
structure Agree (env : Env) (E : VEnv) : Prop where
  uri : ∀ u, E.uriOk u = env.uriValid u
  dateTime : ∀ d, E.dateTimeOk d = env.dateTimeValid d
  spdx : ∀ e, E.spdxExprOk e = env.spdxStrict e
  purl : ∀ p, E.purlErr p = none ↔ env.purlValid p = true

/-- The purl crate renders package URLs that it can parse, and the time crate formats the current
time so that it can parse it. -/
structure RendersValid (env : Env) : Prop where
  purl : ∀ n w q s p, env.purlRender n w q s = some p → env.purlValid p = true
  now : ∀ d, env.now = some d → env.dateTimeValid d = true

/-- The URL fields of a package. -/
def urlFields (p : Package) : List (Option String) :=
  [p.documentation, p.homepage, p.links, p.repository]

/-- No URL of the package looks like a BOM-Link. -/
def NoBomLinks (p : Package) : Prop :=
  ∀ u, some u ∈ urlFields p → ∀ r, u.toList ≠ "urn:cdx".toList ++ r

/-- Every well-formed URL of the package that starts like a BOM-Link is one, and the version has
BOM-Links. -/
def LinksOk (env : Env) (v : SpecVersion) (p : Package) : Prop :=
  ∀ u, some u ∈ urlFields p → env.uriValid u = true → (∃ r, u = "urn:cdx" ++ r) →
    v = .v1_5 ∧ IsBomLink u

/-- A package that an SBOM describes: the one it is about or one of the components. -/
def Describes (md : CargoMetadata) (b : Bom) (p : Package) : Prop :=
  p ∈ md.packages ∧ (topRef b = some p.id ∨ some p.id ∈ componentRefs b)

end Cdx.Spec
