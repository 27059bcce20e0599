import Verif.Model.Main
import Verif.Spec.Older

/-!
# What a run says, and how
-/

namespace Cdx.Spec

/-- What an SBOM says about which package, whatever the files for it look like. -/
def content (s : GeneratedSbom) : Bom × FPath × String × TargetKinds :=
  (s.bom, s.manifestPath, s.packageName, s.targetKinds)

/-- The same run with other contents of the files. -/
def mapContents (f : FileContent → FileContent) : Program → Program
  | .exit r => .exit r
  | .create path next => .create path (mapContents f next)
  | .fill path c next => .fill path (f c) (mapContents f next)

/-- A file with another version in it: for JSON in the member `specVersion`, for XML as the namespace. -/
def withVersion (v : SpecVersion) : FileContent → FileContent
  | .json (.obj o) => .json (.obj (relabel v.display o))
  | .json j => .json j
  | .xml _ l => .xml v.namespace l

end Cdx.Spec
