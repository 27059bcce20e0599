import Verif.Model.Generator
import Verif.Spec.Xml

/-!
# Specification: which texts XML keeps

The XML reader strips white space around texts and refuses some empty texts, so a generated SBOM is
read back from XML only if its texts have no such white space.
-/

namespace Cdx.Spec

/-- A text whose first and last characters are not blanks, tabs or line ends. -/
def NoOuterSpace (s : String) : Prop :=
  ∀ c : Char, (s.toList.head? = some c ∨ s.toList.getLast? = some c) →
    c ≠ ' ' ∧ c ≠ '\t' ∧ c ≠ '\n' ∧ c ≠ '\r'

/-- The libraries that check or render URIs, mail addresses, package URLs and dates accept and give
only texts without outer white space. -/
structure RendersTrimmed (env : Env) : Prop where
  uri : ∀ u, env.uriValid u = true → NoOuterSpace u
  mail : ∀ e, env.emailValid e = true → NoOuterSpace e
  purl : ∀ n w q s p, env.purlRender n w q s = some p → NoOuterSpace p
  now : ∀ d, env.now = some d → NoOuterSpace d
  unix : ∀ i d, env.formatUnix i = some d → NoOuterSpace d
  toolVersion : NoOuterSpace env.toolVersion

/-- The texts of a package have no outer white space; its license expression and the file with its
license are not empty, and the expression neither begins nor ends with a slash. -/
structure TidyPackage (env : Env) (p : Package) : Prop where
  version : NoOuterSpace p.version
  description : ∀ d, p.description = some d → NoOuterSpace d
  authors : ∀ a ∈ p.authors, a ≠ "" ∧ NoOuterSpace a
  license : ∀ l, p.license = some l → l ≠ "" ∧ NoOuterSpace l ∧
    l.toList.head? ≠ some '/' ∧ l.toList.getLast? ≠ some '/'
  licenseFile : ∀ f, p.license = none → p.licenseFile = some f → env.readFile f ≠ some ""
  targets : ∀ t ∈ p.targets, NoOuterSpace t.name

/-- The texts of a component that come from the manifest of a package: its name, version, description,
author and license. They have no outer white space, and a named license and the text of a license are
not empty. -/
structure ComponentTexts (c : Component) : Prop where
  texts : ∀ t, some t ∈ [some c.name, c.version, c.description, c.author] → NoOuterSpace t
  expression : ∀ l, c.licenses = some l → ∀ e, .expression e ∈ l → NoOuterSpace e.expression
  license : ∀ l, c.licenses = some l → ∀ x, .license x ∈ l →
    (∀ n, x.licenseIdentifier = .name n → NoOuterSpace n ∧ n ≠ "") ∧ ∀ t, x.text = some t → t.content ≠ ""

/-- The texts of an SBOM that come from manifests and from the options: those of its components, the
names of the authors, and the target. -/
structure BomTexts (b : Bom) : Prop where
  components : ∀ l, b.components = some l → ∀ c ∈ l, ComponentTexts c
  top : ∀ m c, b.metadata = some m → m.component = some c → ComponentTexts c
  inner : ∀ m c l, b.metadata = some m → m.component = some c → c.components = some l →
    ∀ d ∈ l, ComponentTexts d
  authors : ∀ m l, b.metadata = some m → m.authors = some l → ∀ a ∈ l, ∀ n, a.name = some n →
    NoOuterSpace n
  target : ∀ m l, b.metadata = some m → m.properties = some l → ∀ q ∈ l, NoOuterSpace q.value

end Cdx.Spec
