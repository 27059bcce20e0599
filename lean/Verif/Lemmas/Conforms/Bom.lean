import Verif.Lemmas.Conforms.Formulation
import Verif.Lemmas.Format.At

/-!
# BOMs conform to the JSON schema
-/

namespace Cdx

open Spec

set_option linter.unusedVariables false
set_option linter.unusedSimpArgs false
set_option maxRecDepth 8000

variable {F : Formats} {v : SpecVersion}

@[schema_fits]
theorem serialNumber_of_sound {x : String} (h : (Elem.serialNumber x).Sound F v) :
    patternSerial.isMatch x = true := rule_of_sound h

@[schema_fits]
theorem holds_version {n : Nat} (h : SpecVersion.v1_5 = SpecVersion.v1_5 → 1 ≤ n) :
    (Keyword.minimum 1).Holds F (.nat n) := h rfl

set_option maxHeartbeats 1000000 in
theorem Bom.fits {x : Bom} (h : (Elem.bom x).Sound F v) : Conforms F v (x.toJson v) := by
  have h := sound_bom.mp h
  cases v
  · refine fits_ref (s := Schema13.root) rfl ?_
    schema_simp [Schema13.root, Bom.toJson]
    fits_close h
  · refine fits_ref (s := Schema14.root) rfl ?_
    schema_simp [Schema14.root, Bom.toJson]
    fits_close h
  · refine fits_ref (s := Schema15.root) rfl ?_
    schema_simp [Schema15.root, Bom.toJson]
    fits_close h

/-- Some way to print numbers: what is written as JSON does not depend on it. -/
@[instance_reducible] def someFormat : F32Format where
  display x := showNat x.toNat
  parse s := (parseU32 s).map (BitVec.ofNat 32)
  ofNat n := BitVec.ofNat 32 n
  parse_display x _ := by
    rw [parseU32_show x.isLt]
    simp
  no_space x c hc := digit_whitespace (showNat_digit hc)
  nonempty x := showNat_ne _

/-- The parts of a BOM that the version does not have make no difference. -/
theorem Bom.conforms {x : Bom} (h : (Elem.bom (x.at v)).Sound F v) : Conforms F v (x.toJson v) := by
  letI : F32Format := someFormat
  letI : ReadLimit := ⟨0⟩
  rw [← Bom.toJson_at]
  exact Bom.fits h

end Cdx
