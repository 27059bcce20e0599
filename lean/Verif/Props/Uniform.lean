import Verif.Props.Component

/-!
# C104: a package is described the same way in all SBOMs of a workspace
-/

namespace Cdx.Props

open Spec

variable {env : Env} {md : CargoMetadata} {nodes : List Node} {config : SbomConfig}
  {sboms : List GeneratedSbom} {s s' : GeneratedSbom} {root root' : PackageId}

private theorem describes (hmd : MetadataOk md nodes) (h : createSboms env md config = .ok sboms)
    (hs : At sboms s md.workspaceMembers root) {c : Component} (hc : IsComponentOf s c) :
    ∃ rp p, p ∈ md.packages ∧ s.manifestPath = rp.manifestPath ∧
      ComponentOf env config md.workspaceRoot rp p c := by
  obtain ⟨rp, hrp, hrid, ⟨top, h3, h4⟩, h5⟩ := described hmd h hs
  have hman : s.manifestPath = rp.manifestPath := by
    obtain ⟨i, kinds, pr, pkg, comps, m, h1, h2, sh, sel⟩ := sbom_shape hmd h hs
    have := (lookup_indexPackages hmd.packagesNodup).2 ⟨hrp, hrid⟩
    rw [sh.pkgOk] at this
    cases this
    exact sh.manifest
  rcases hc with hc | hc
  · rw [h3] at hc
    cases hc
    exact ⟨rp, rp, hrp, hman, h4⟩
  · obtain ⟨p, hp, hco⟩ := h5 c hc
    exact ⟨rp, p, hp, hman, hco⟩

/-- C104: where a package occurs in the SBOMs of two members, as the component an SBOM is about or in the
list, it has the same name, version, description, author, references and licenses; the same hashes, if both
members have the same `Cargo.lock`; and the same package URL, unless it is a local package inside of the
workspace, whose URL is relative to the member. -/
theorem C104_uniform (hmd : MetadataOk md nodes) (h : createSboms env md config = .ok sboms)
    (hs : At sboms s md.workspaceMembers root) (hs' : At sboms s' md.workspaceMembers root')
    {c c' : Component} (hc : IsComponentOf s c) (hc' : IsComponentOf s' c') (hid : c'.bomRef = c.bomRef) :
    c'.name = c.name ∧ c'.version = c.version ∧ c'.description = c.description ∧ c'.author = c.author ∧
      c'.externalReferences = c.externalReferences ∧ c'.licenses = c.licenses ∧
      (locateCargoLock env s'.manifestPath = locateCargoLock env s.manifestPath → c'.hashes = c.hashes) ∧
      ((∀ p ∈ md.packages, c.bomRef = some p.id →
        p.source ≠ none ∨ ¬ md.workspaceRoot <+: p.manifestPath.dropLast) → c'.purl = c.purl) := by
  obtain ⟨rp, p, hp, hman, hco⟩ := describes hmd h hs hc
  obtain ⟨rp', p', hp', hman', hco'⟩ := describes hmd h hs' hc'
  have he : p' = p := by
    have e : p'.id = p.id := Option.some.inj (hco'.ref.symm.trans (hid.trans hco.ref))
    have a := (lookup_indexPackages hmd.packagesNodup).2 ⟨hp', e⟩
    have b := (lookup_indexPackages hmd.packagesNodup).2 ⟨hp, rfl⟩
    rw [a] at b
    exact Option.some.inj b
  subst he
  refine ⟨hco'.name.trans hco.name.symm, hco'.version.trans hco.version.symm,
    hco'.description.trans hco.description.symm, hco'.author.trans hco.author.symm, hco'.refs.trans hco.refs.symm,
    hco'.licenses.trans hco.licenses.symm, fun hl => ?_, fun hl => ?_⟩
  · rw [hco'.hashes, hco.hashes]
    unfold memberHashes
    rw [← hman, ← hman', hl]
  · have hq : purlQualifiers env p' rp' md.workspaceRoot = purlQualifiers env p' rp md.workspaceRoot := by
      unfold purlQualifiers
      cases hsrc : p'.source with
      | some src => rfl
      | none =>
        have hout := (hl p' hp hco.ref).resolve_left (fun hne => hne hsrc)
        have hloc : localPackageDir env p' rp' md.workspaceRoot = localPackageDir env p' rp md.workspaceRoot := by
          unfold localPackageDir FPath.parent
          split
          · rfl
          · next d hd =>
            have hd' : d = p'.manifestPath.dropLast := by
              revert hd
              split <;> simp_all
            have : FPath.startsWith d md.workspaceRoot = false := by
              rw [hd']
              exact Bool.eq_false_iff.2 fun h => hout (List.isPrefixOf_iff_prefix.1 h)
            rw [this]
            rfl
        simp only [hloc]
    have h1 := hco'.purl
    have h2 := hco.purl
    unfold getPurl at h1 h2
    rw [hq, h2] at h1
    exact (Except.ok.inj h1).symm

/-! ### Non-vacuity, and why local packages are an exception -/

/-- The bom-refs and package URLs of the components of the SBOMs. -/
def purlsOf : Res (List GeneratedSbom) → List (List (Option String × Option Purl))
  | .ok l => l.map fun s => (components s.bom).map fun c => (c.bomRef, c.purl)
  | .error _ => []

/-- The example with the members `root` and `a`, which both use `c` from a registry. -/
example : MetadataOk { Example.md with workspaceMembers := ["root", "a"] } Example.nodes ∧
    (purlsOf (createSboms { Example.env with debug := false } { Example.md with workspaceMembers := ["root", "a"] }
      Example.config)).map (List.map Prod.fst) = [[some "a", some "b", some "c"], [some "c"]] ∧
    (Example.pkg "c").source ≠ none :=
  ⟨{ resolve := rfl, graph := Example.md_ok.graph, packagesNodup := Example.md_ok.packagesNodup,
     packages := Example.md_ok.packages, members := by decide }, by decide +kernel, by decide⟩

/-- A workspace with three local packages, where `x` and `y` both use `l`. -/
def localMd : CargoMetadata where
  packages := [{ Example.pkg "x" with source := none, manifestPath := ["w", "Cargo.toml"] },
    { Example.pkg "y" with source := none, manifestPath := ["w", "y", "Cargo.toml"] },
    { Example.pkg "l" with source := none, manifestPath := ["w", "l", "Cargo.toml"] }]
  workspaceMembers := ["x", "y"]
  resolve := some [{ id := "x", deps := [Example.dep "l" [.normal]], dependencies := ["l"] },
    { id := "y", deps := [Example.dep "l" [.normal]], dependencies := ["l"] }, { id := "l", deps := [], dependencies := [] }]
  workspaceRoot := ["w"]

/-- C104: for local packages the URLs differ: `l` is `file://l` for one member and `file://../l` for the
other. -/
theorem C104_local_packages :
    purlsOf (createSboms { Example.env with purlRender := fun n _ q _ => some (n ++ (q.map Prod.snd).headD "") }
      localMd Example.config) = [[(some "l", some "lfile://l")], [(some "l", some "lfile://../l")]] := by
  decide +kernel

end Cdx.Props
