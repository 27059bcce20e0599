import Verif.Model.Generator
import Verif.Model.Validate
import Verif.Model.Format.Bom

/-!
# Writing a file

`SbomGenerator`'s `write_to_file`. The files themselves are not modelled: what is written is given as
the JSON value or the XML events that the libraries render.
-/

namespace Cdx

variable [F32Format]

variable [ReadLimit]

/-- What is written to a file: a JSON value, or the default namespace and the events of an XML
document (`generator.rs` 880-887). -/
inductive FileContent where
  | json (j : Json)
  | xml (ns : String) (w : List WEvent)

/-- The validation in a debug build (`generator.rs` 862-871): errors are a panic. -/
def debugCheck (E : VEnv) (debug : Bool) (bom : Bom) : Res Unit := do
  if debug then
    let r ← bom.validate E
    if r.hasErrors then .error (.panic "The generated SBOM failed validation") else .ok ()
  else .ok ()

/-- The serialisation (`generator.rs` 879-888). -/
def serialise (w : FileWrite) : Res FileContent :=
  match w.format with
  | .json => match w.bom.outputJson w.specVersion with
    | .ok j => .ok (.json j)
    | .error e => .error (.err e)
  | .xml => match w.bom.outputXml w.specVersion with
    | .ok (ns, l) => .ok (.xml ns l)
    | .error e => .error (.err e)

/-- `write_to_file` (`generator.rs` 861-894) for the arguments collected in a `FileWrite`, without
the file system, which is in `Model/Main.lean`. -/
def writeFile (E : VEnv) (debug : Bool) (w : FileWrite) : Res FileContent := do
  debugCheck E debug w.bom
  serialise w

/-- Reading such a file: `Bom::parse_from_json` (`models/bom.rs` 127-149) for JSON,
`Bom::parse_from_xml_with_version` (`models/bom.rs` 178-187) for XML. -/
def FileContent.parse (v : SpecVersion) : FileContent → Option Bom
  | .json j => (Bom.parseJson j).toOption
  | .xml ns w => (Bom.parseXmlWith v (document ns w)).toOption

end Cdx
