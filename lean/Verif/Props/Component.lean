import Verif.Lemmas.Fields
import Verif.Lemmas.Base64
import Verif.Props.Example

/-!
# Properties C16-C21, C23, C46: the content of generated components
-/

set_option linter.unusedSimpArgs false

namespace Cdx.Props
open Cdx OMap

variable {env : Env} {md : CargoMetadata} {nodes : List Node} {config : SbomConfig}
  {sboms : List GeneratedSbom} {s : GeneratedSbom} {root : PackageId}

/-- `c` is the top-level component or a listed component of the SBOM. -/
def IsComponentOf (s : GeneratedSbom) (c : Component) : Prop :=
  Spec.topComponent s.bom = some c ∨ c ∈ Spec.components s.bom

/-- The package described by a component. -/
private theorem package_of (hmd : Spec.MetadataOk md nodes)
    (h : createSboms env md config = .ok sboms) (hs : Spec.At sboms s md.workspaceMembers root) :
    ∃ rp ∈ md.packages, rp.id = root ∧ ∀ c, IsComponentOf s c → ∃ p ∈ md.packages,
      ComponentOf env config md.workspaceRoot rp p c := by
  obtain ⟨rp, h1, h2, ⟨top, h3, h4⟩, h5⟩ := described hmd h hs
  refine ⟨rp, h1, h2, ?_⟩
  rintro c (hc | hc)
  · rw [h3] at hc; cases hc; exact ⟨rp, h1, h4⟩
  · exact h5 c hc

/-! ## C16, C46: licenses -/

/-- The license string is an SPDX expression in the configured mode, and `e` is that expression:
in strict mode the text itself, in lax mode the text with every `/` replaced by ` OR `. -/
def ParsesAs (env : Env) (config : SbomConfig) (l e : String) : Prop :=
  if config.licenseParser.map (·.mode) = some .strict then env.spdxStrict l = true ∧ e = l
  else env.spdxLax l = true ∧ e = joinStr " OR " (splitStr '/' l) ∧ env.spdxStrict e = true

private theorem licenseOfString_spec (l : String) :
    (∀ e, ParsesAs env config l e → licenseOfString env config l = .expression { expression := e }) ∧
    ((∀ e, ¬ ParsesAs env config l e) → licenseOfString env config l = .license (License.named l)) := by
  have hj : String.ofList (replaceSlash l.toList) = joinStr " OR " (splitStr '/' l) := by
    rw [replaceSlash_join]
    simp [joinStr, splitStr, List.map_map, Function.comp_def]
  unfold ParsesAs licenseOfString SpdxExpression.parseLax SpdxExpression.tryFrom
  rw [hj]
  cases hc : config.licenseParser with
  | none =>
    simp only [Option.map_none, reduceCtorEq, if_false]
    constructor
    · rintro e ⟨h1, rfl, h3⟩; simp [h1, h3]
    · intro h
      have := h (joinStr " OR " (splitStr '/' l))
      by_cases h1 : env.spdxLax l = true <;>
        by_cases h2 : env.spdxStrict (joinStr " OR " (splitStr '/' l)) = true <;> simp_all
  | some o =>
    simp only [Option.map_some, Option.some.injEq]
    cases ho : o.mode with
    | strict =>
      simp only [if_true]
      constructor
      · rintro e ⟨h1, rfl⟩; simp [h1]
      · intro h
        have := h l
        by_cases h1 : env.spdxStrict l = true <;> simp_all
    | lax =>
      simp only [reduceCtorEq, if_false]
      constructor
      · rintro e ⟨h1, rfl, h3⟩; simp [h1, h3]
      · intro h
        have := h (joinStr " OR " (splitStr '/' l))
        by_cases h1 : env.spdxLax l = true <;>
          by_cases h2 : env.spdxStrict (joinStr " OR " (splitStr '/' l)) = true <;> simp_all

/-- C16: the licenses of a component are determined by its package: the SPDX expression of the
license string, else a named license with that text; the license file, base64-encoded, only if
there is no license string; nothing otherwise. -/
theorem C16_licenses (hmd : Spec.MetadataOk md nodes) (h : createSboms env md config = .ok sboms)
    (hs : Spec.At sboms s md.workspaceMembers root) :
    ∀ c, IsComponentOf s c → ∃ p ∈ md.packages, c.bomRef = some p.id ∧
      (∀ l, p.license = some l →
        (∀ e, ParsesAs env config l e → c.licenses = some [.expression { expression := e }]) ∧
        ((∀ e, ¬ ParsesAs env config l e) →
          c.licenses = some [.license { licenseIdentifier := .name (normalizedString l) }])) ∧
      (p.license = none →
        (∀ f content, p.licenseFile = some f → env.readFile f = some content →
          ∃ text, c.licenses = some
              [.license { licenseIdentifier := .name "Unknown", text := some text }] ∧
            text.encoding = some .base64 ∧
            b64Decode text.content.toList = some (utf8Bytes content)) ∧
        ((p.licenseFile = none ∨ ∃ f, p.licenseFile = some f ∧ env.readFile f = none) →
          c.licenses = none)) := by
  intro c hc
  obtain ⟨rp, _, _, hall⟩ := package_of hmd h hs
  obtain ⟨p, hp, hco⟩ := hall c hc
  refine ⟨p, hp, hco.ref, ?_, ?_⟩
  · intro l hl
    obtain ⟨h1, h2⟩ := licenseOfString_spec (env := env) (config := config) l
    have e : c.licenses = some [licenseOfString env config l] := by
      rw [hco.licenses]; simp [getLicenses, hl]
    constructor
    · intro x hx; rw [e, h1 x hx]
    · intro hx; rw [e, h2 hx]; rfl
  · intro hl
    constructor
    · intro f content hf hr
      refine ⟨attachedText none (utf8Bytes content), ?_, rfl, ?_⟩
      · rw [hco.licenses]
        have : normalizedString "Unknown" = "Unknown" := by decide
        simp [getLicenses, hl, hf, hr, License.named, this]
      · simp [attachedText, b64_roundtrip]
    · intro hx
      rw [hco.licenses]
      rcases hx with hf | ⟨f, hf, hr⟩
      · simp [getLicenses, hl, hf]
      · simp [getLicenses, hl, hf, hr]

/-- C16: a component carries at most one license choice. -/
theorem C16_at_most_one (hmd : Spec.MetadataOk md nodes) (h : createSboms env md config = .ok sboms)
    (hs : Spec.At sboms s md.workspaceMembers root) :
    ∀ c, IsComponentOf s c → ∀ ls, c.licenses = some ls → ls.length = 1 := by
  intro c hc ls hls
  obtain ⟨rp, _, _, hall⟩ := package_of hmd h hs
  obtain ⟨p, hp, hco⟩ := hall c hc
  rw [hco.licenses] at hls
  unfold getLicenses at hls
  cases h1 : p.license <;> cases h2 : p.licenseFile <;> simp [h1, h2] at hls
  · next f =>
    cases h3 : env.readFile f <;> simp [h3] at hls
    subst hls; rfl
  · subst hls; rfl
  · subst hls; rfl

/-- C46: whatever `parse_lax` accepts is a valid strict expression, namely the text with every
`/` replaced by ` OR `; likewise for the strict parser and the unchanged text. -/
theorem C46_lax_yields_strict (l : String) (e : SpdxExpression) :
    (SpdxExpression.parseLax env l = some e →
      e.expression = joinStr " OR " (splitStr '/' l) ∧ env.spdxStrict e.expression = true) ∧
    (SpdxExpression.tryFrom env l = some e →
      e.expression = l ∧ env.spdxStrict e.expression = true) := by
  have hj : String.ofList (replaceSlash l.toList) = joinStr " OR " (splitStr '/' l) := by
    rw [replaceSlash_join]
    simp [joinStr, splitStr, List.map_map, Function.comp_def]
  unfold SpdxExpression.parseLax SpdxExpression.tryFrom
  rw [hj]
  constructor
  · intro h
    by_cases h1 : env.spdxLax l = true <;> simp [h1] at h
    obtain ⟨h2, rfl⟩ := h
    exact ⟨rfl, h2⟩
  · intro h
    simp at h
    obtain ⟨h2, rfl⟩ := h
    exact ⟨rfl, h2⟩

/-- C46: every license expression of a generated SBOM passes the strict SPDX validation. -/
theorem C46_generated_expressions (hmd : Spec.MetadataOk md nodes)
    (h : createSboms env md config = .ok sboms) (hs : Spec.At sboms s md.workspaceMembers root) :
    ∀ c, IsComponentOf s c → ∀ ls, c.licenses = some ls → ∀ e, .expression e ∈ ls →
      env.spdxStrict e.expression = true := by
  intro c hc ls hls e he
  obtain ⟨rp, _, _, hall⟩ := package_of hmd h hs
  obtain ⟨p, hp, hco⟩ := hall c hc
  rw [hco.licenses] at hls
  unfold getLicenses at hls
  cases h1 : p.license with
  | none =>
    cases h2 : p.licenseFile with
    | none => simp [h1, h2] at hls
    | some f =>
      cases h3 : env.readFile f <;> simp [h1, h2, h3] at hls
      subst hls; simp at he
  | some l =>
    simp [h1] at hls
    subst hls
    simp only [List.mem_singleton] at he
    unfold licenseOfString at he
    simp only at he
    split at he
    · next hx =>
      cases he
      split at hx
      · exact ((C46_lax_yields_strict (env := env) l e).2 hx).2
      · exact ((C46_lax_yields_strict (env := env) l e).1 hx).2
    · cases he

/-- Non-vacuity: `MIT/Apache-2.0` in lax mode, and in strict mode. -/
example : ∃ s, createSboms Example.env Example.md Example.config = .ok [s] ∧
    (Spec.topComponent s.bom).bind (·.licenses) = some [.expression { expression := "MIT OR Apache-2.0" }] :=
  ⟨_, rfl, by decide +kernel⟩
example : ParsesAs Example.env Example.config "MIT/Apache-2.0" "MIT OR Apache-2.0" := by
  unfold ParsesAs; decide +kernel
example : ∃ s, createSboms Example.env Example.md
      { Example.config with licenseParser := some { mode := .strict } } = .ok [s] ∧
    (Spec.topComponent s.bom).bind (·.licenses) =
      some [.license { licenseIdentifier := .name "MIT/Apache-2.0" }] :=
  ⟨_, rfl, by decide +kernel⟩
example : SpdxExpression.parseLax Example.env "MIT/Apache-2.0" = some { expression := "MIT OR Apache-2.0" } := by
  decide +kernel

/-! ## C17: targets -/

private theorem containsChars_iff {pat l : List Char} :
    containsChars pat l = true ↔ ∃ a b, l = a ++ pat ++ b := by
  induction l with
  | nil =>
    simp only [containsChars, List.isEmpty_iff]
    constructor
    · rintro rfl; exact ⟨[], [], rfl⟩
    · rintro ⟨a, b, h⟩
      have := congrArg List.length h
      simp only [List.length_append, List.length_nil] at this
      exact List.eq_nil_of_length_eq_zero (by omega)
  | cons c l ih =>
    simp only [containsChars, Bool.or_eq_true, Option.isSome_iff_exists, ih]
    constructor
    · rintro (⟨r, hr⟩ | ⟨a, b, h⟩)
      · exact ⟨[], r, by simpa using stripPrefixChars_iff.1 hr⟩
      · exact ⟨c :: a, b, by simp [h]⟩
    · rintro ⟨a, b, h⟩
      cases a with
      | nil => exact .inl ⟨b, stripPrefixChars_iff.2 (by simpa using h)⟩
      | cons d a =>
        simp only [List.cons_append, List.cons.injEq] at h
        exact .inr ⟨a, b, by simpa using h.2⟩

private theorem described_mem (ts : List Target) :
    (describedTargets (filterTargets ts)).map (·.1) =
      ts.filter (fun t => !(t.isBench || t.isExample || t.isTest || t.isCustomBuild) &&
        (targetType t).isSome) := by
  unfold describedTargets filterTargets
  induction ts with
  | nil => rfl
  | cons t ts ih =>
    simp only [List.filter_cons]
    generalize hb : (t.isBench || t.isExample || t.isTest || t.isCustomBuild) = b
    cases b
    · cases h2 : targetType t <;> simp only [Bool.not_false, if_true, Bool.true_and,
        List.filterMap_cons, h2, Option.map_none, Option.map_some, Option.isSome_none,
        Option.isSome_some, List.map_cons, ih] <;> simp
    · simp only [Bool.not_true, Bool.false_and, Bool.false_eq_true, if_false, ih]

private theorem targetType_some (t : Target) :
    (targetType t).isSome = true ↔ ("bin" ∈ t.kind ∨ "proc-macro" ∈ t.kind ∨
      ∃ k ∈ t.kind, ∃ a b, k.toList = a ++ "lib".toList ++ b) := by
  have h1 : t.isBin = true ↔ "bin" ∈ t.kind := by
    simp [Target.isBin]
  have h2 : t.kind.any (· == "proc-macro") = true ↔ "proc-macro" ∈ t.kind := by simp
  have h3 : t.kind.any (fun k => containsStr k "lib") = true ↔
      ∃ k ∈ t.kind, ∃ a b, k.toList = a ++ "lib".toList ++ b := by
    simp only [List.any_eq_true, containsStr, containsChars_iff]
  rw [← h1, ← h2, ← h3]
  unfold targetType
  by_cases a : t.isBin = true
  · simp [a]
  · by_cases b : t.kind.any (· == "proc-macro") = true
    · simp only [a, b]; simp
    · by_cases c : t.kind.any (fun k => containsStr k "lib") = true
      · simp only [a, b, c]; simp
      · simp only [a, b, c]; simp

open Classical in
/-- The described targets are those for which the target loop makes a subcomponent. -/
theorem filter_described (ts : List Target) :
    ts.filter (Spec.IsDescribed ·) = (describedTargets (filterTargets ts)).map (·.1) := by
  rw [described_mem]
  refine List.filter_congr fun t _ => ?_
  rw [Bool.eq_iff_iff, decide_eq_true_iff, Bool.and_eq_true, targetType_some]
  simp [Spec.IsDescribed, Target.isBench, Target.isExample, Target.isTest, Target.isCustomBuild,
    and_assoc]
  try grind

open Classical in
/-- C17: the subcomponents of the top-level component are, in order, exactly the described
targets of the root package; the `j`-th has the target's name, the reference numbered `j`, type
`application` if it is a binary and `library` otherwise, and is mapped to its own kinds. -/
theorem C17_targets (hmd : Spec.MetadataOk md nodes) (h : createSboms env md config = .ok sboms)
    (hs : Spec.At sboms s md.workspaceMembers root) :
    ∃ p ∈ md.packages, p.id = root ∧ ∃ ts, ts = p.targets.filter (Spec.IsDescribed ·) ∧
      ∃ top subs, Spec.topComponent s.bom = some top ∧ top.components = some subs ∧
        subs.length = ts.length ∧
        (top.componentType = .application ↔ ∃ t ∈ p.targets, "bin" ∈ t.kind) ∧
        (top.componentType = .application ∨ top.componentType = .library) ∧
        ∀ (j : Nat) t, ts[j]? = some t → ∃ c, subs[j]? = some c ∧
          c.name = normalizedString t.name ∧ c.version = some (normalizedString p.version) ∧
          c.bomRef = some (root ++ " bin-target-" ++ toString j) ∧
          ("bin" ∈ t.kind → c.componentType = .application) ∧
          ("bin" ∉ t.kind → c.componentType = .library) ∧
          s.targetKinds.lookup (root ++ " bin-target-" ++ toString j) = some t.kind := by
  obtain ⟨i, kinds, pr, pkg, comps, m, h1, h2, sh, sel⟩ := sbom_shape hmd h hs
  obtain ⟨a, b⟩ := (lookup_indexPackages hmd.packagesNodup).1 sh.pkgOk
  obtain ⟨tms, top, props, _, m2, _, m4⟩ := createMetadata_ok sh.mdOk
  obtain ⟨top', subs, t1, t2, t3⟩ := createToplevel_ok m2
  simp only at m4 t3
  obtain ⟨new, e1, e2, e3, _⟩ := targetLoop_ok t2
  simp only [List.nil_append, List.length_nil, Nat.zero_add] at e1 e3
  subst e1
  have hbin : ∀ t : Target, t.isBin = true ↔ "bin" ∈ t.kind := by
    intro t; simp [Target.isBin]
  refine ⟨pkg, a, b, (describedTargets (filterTargets pkg.targets)).map (·.1), ?_, top,
    subs, by simp [Spec.topComponent, sh.bom, m4], by rw [t3], by simp [e2], ?_, ?_, ?_⟩
  · exact (filter_described pkg.targets).symm
  · rw [t3]
    simp only [getClassification]
    by_cases hb : pkg.targets.any (·.isBin) = true
    · rw [if_pos hb]
      simp only [List.any_eq_true, hbin] at hb
      exact ⟨fun _ => hb, fun _ => rfl⟩
    · rw [if_neg hb]
      simp only [List.any_eq_true, hbin] at hb
      exact ⟨fun e => (by cases e), fun e => absurd e hb⟩
  · rw [t3]
    simp only [getClassification]
    split <;> simp
  · intro j t hj
    rw [List.getElem?_map] at hj
    cases hd : (describedTargets (filterTargets pkg.targets))[j]? with
    | none => rw [hd] at hj; cases hj
    | some tt =>
      obtain ⟨t', ty⟩ := tt
      rw [hd] at hj
      cases hj
      obtain ⟨c, c1, c2, c3⟩ := e3 j t' ty hd
      obtain ⟨d1, _⟩ := createSubcomponent_ok c2
      have hty : targetType t' = some ty := by
        have := List.mem_of_getElem? hd
        obtain ⟨t2, _, h4⟩ := List.mem_filterMap.1 this
        cases h5 : targetType t2 with
        | none => rw [h5] at h4; cases h4
        | some x => rw [h5] at h4; cases h4; exact h5
      rw [b] at c2 c3 d1
      have hct : c.componentType = ty := by rw [d1]; rfl
      refine ⟨c, c1, by rw [d1]; rfl, by rw [d1]; rfl, by rw [d1]; rfl, ?_, ?_, c3⟩
      · intro hb
        rw [hct]
        unfold targetType at hty
        rw [if_pos ((hbin t').2 hb)] at hty
        cases hty; rfl
      · intro hb
        rw [hct]
        unfold targetType at hty
        rw [if_neg (fun e => hb ((hbin t').1 e))] at hty
        split at hty
        · cases hty; rfl
        · split at hty
          · cases hty; rfl
          · cases hty

/-- Non-vacuity: the example has a library, a test and a binary target. -/
example : ∃ s, createSboms Example.env Example.md Example.config = .ok [s] ∧
    ((Spec.topComponent s.bom).bind (·.components)).map
      (List.map fun c => (c.name, c.componentType, c.bomRef)) =
    some [("root", .library, some "root bin-target-0"), ("cli", .application, some "root bin-target-1")] ∧
    s.targetKinds.lookup "root bin-target-1" = some ["bin"] :=
  ⟨_, rfl, by decide +kernel⟩

/-! ## C18: lock file -/

/-- C18: the lock file found is the one in the nearest directory at or above the manifest path
that has one. -/
theorem C18_nearest_lock (manifest r : FPath) :
    locateCargoLock env manifest = some r ↔
      ∃ dir, dir <+: manifest ∧ r = dir ++ ["Cargo.lock"] ∧ env.isFile r = true ∧
        ∀ dir', dir' <+: manifest → dir.length < dir'.length →
          env.isFile (dir' ++ ["Cargo.lock"]) = false := by
  unfold locateCargoLock
  have hs : ((FPath.ancestors manifest).map (fun p => p ++ ["Cargo.lock"])).Pairwise
      fun a b => b.length < a.length := by
    rw [List.pairwise_map]
    refine (ancestors_sorted manifest).imp ?_
    intro a b h; simpa using h
  rw [find?_sorted (f := List.length) hs]
  simp only [List.mem_map, mem_ancestors]
  constructor
  · rintro ⟨⟨dir, h1, rfl⟩, h2, h3⟩
    exact ⟨dir, h1, rfl, h2, fun d hd hl => h3 _ ⟨d, hd, rfl⟩ (by simpa using hl)⟩
  · rintro ⟨dir, h1, rfl, h2, h3⟩
    refine ⟨⟨dir, h1, rfl⟩, h2, ?_⟩
    rintro _ ⟨d, hd, rfl⟩ hl
    exact h3 d hd (by simpa using hl)

/-- C18: the lookup fails exactly if no directory at or above the manifest has a lock file. -/
theorem C18_no_lock (manifest : FPath) :
    locateCargoLock env manifest = none ↔
      ∀ dir, dir <+: manifest → env.isFile (dir ++ ["Cargo.lock"]) = false := by
  unfold locateCargoLock
  rw [List.find?_eq_none]
  simp only [List.mem_map, mem_ancestors, Bool.not_eq_true]
  constructor
  · intro h dir hd; exact h _ ⟨dir, hd, rfl⟩
  · rintro h _ ⟨dir, hd, rfl⟩; exact h dir hd

/-- Non-vacuity: a workspace member below the directory with the lock file. -/
example : locateCargoLock Example.env ["w", "member", "Cargo.toml"] = some ["w", "Cargo.lock"] := by
  decide
example : locateCargoLock Example.env ["x", "Cargo.toml"] = none := by decide

/-! ## C19: checksums -/

/-- C19: with the lock file read for the root package, a component of a package whose id names
`source`, `name` and `version` (cargo's format `source#name@version`) has the checksum of
exactly the lock entry with the same source, name and version, as SHA-256 in lower-case
hexadecimal; without such an entry it has none. -/
theorem C19_checksums (hmd : Spec.MetadataOk md nodes) (h : createSboms env md config = .ok sboms)
    (hs : Spec.At sboms s md.workspaceMembers root) {path : FPath} {lock : List LockPackage}
    (hpath : locateCargoLock env s.manifestPath = some path) (hlock : env.loadLock path = some lock)
    (hplain : ∀ l ∈ lock, Plain l.name ∧ Plain l.version)
    (huniq : lock.Pairwise fun a b => (a.source, a.name, a.version) ≠ (b.source, b.name, b.version)) :
    ∀ c, IsComponentOf s c → ∀ source name version, Plain name → Plain version →
      c.bomRef = some (source ++ "#" ++ name ++ "@" ++ version) →
      (∀ l ∈ lock, l.source = some source → l.name = name → l.version = version →
        ∀ bytes, l.checksum = some bytes →
          ∃ content, c.hashes = some [{ alg := .sha256, content := content }] ∧
            Spec.HexOf bytes.toList content.toList) ∧
      ((∀ l ∈ lock, l.source = some source → l.name = name → l.version = version →
        l.checksum = none) → c.hashes = none) := by
  intro c hc source name version hn hv hid
  obtain ⟨rp, hrp, hrid, hall⟩ := package_of hmd h hs
  obtain ⟨p, hp, hco⟩ := hall c hc
  have hman : s.manifestPath = rp.manifestPath := by
    obtain ⟨i, kinds, pr, pkg, comps, m, h1, h2, sh, sel⟩ := sbom_shape hmd h hs
    have := (lookup_indexPackages hmd.packagesNodup).2 ⟨hrp, hrid⟩
    rw [sh.pkgOk] at this
    cases this
    exact sh.manifest
  have hpid : p.id = source ++ "#" ++ name ++ "@" ++ version := by
    have := hco.ref.symm.trans hid
    exact Option.some.inj this
  have hmh : memberHashes env rp.manifestPath = packageHashes lock := by
    unfold memberHashes
    rw [← hman, hpath]
    simp [hlock]
  have hpw : (lock.filter (fun p => p.checksum.isSome)).Pairwise fun a b => pkgid a ≠ pkgid b := by
    have h1 : lock.Pairwise fun a b => (a.checksum.isSome → pkgid a ≠ pkgid b) := by
      refine List.Pairwise.imp_of_mem ?_ huniq
      intro a b ha hb hne _ he
      apply hne
      obtain ⟨b1, b2⟩ := hplain b hb
      obtain ⟨a1, a2⟩ := hplain a ha
      cases hbs : b.source with
      | some src =>
        have : pkgid b = src ++ "#" ++ b.name ++ "@" ++ b.version := by simp [pkgid, hbs]
        rw [this] at he
        obtain ⟨e1, e2, e3⟩ := (pkgid_inj a1 a2 b1 b2).1 he
        simp [e1, e2, e3]
      | none =>
        cases has : a.source with
        | some src =>
          have : pkgid a = src ++ "#" ++ a.name ++ "@" ++ a.version := by simp [pkgid, has]
          rw [this] at he
          obtain ⟨e1, e2, e3⟩ := (pkgid_inj b1 b2 a1 a2).1 he.symm
          rw [hbs] at e1; cases e1
        | none =>
          simp only [pkgid, hbs, has] at he
          have he := congrArg String.toList he
          simp only [String.toList_append, show "@".toList = ['@'] from rfl, List.append_assoc,
            List.singleton_append] at he
          obtain ⟨e1, e2⟩ := split_last_inj he a2.2 b2.2
          simp [String.toList_inj.1 e1, String.toList_inj.1 e2]
    have h2 := h1.filter (fun p => p.checksum.isSome)
    refine List.Pairwise.imp_of_mem ?_ h2
    intro a b ha _ hab
    exact hab (by simpa using (List.mem_filter.1 ha).2)
  constructor
  · intro l hl e1 e2 e3 bytes hb
    have := (packageHashes_lookup (k := p.id) (h := bytes) hpw).2
      ⟨l, hl, by rw [hpid]; simp [pkgid, e1, e2, e3], hb⟩
    refine ⟨String.ofList (hexBytes bytes.toList), ?_, by simpa using hexBytes_hexOf bytes.toList⟩
    rw [hco.hashes, hmh]
    simp [getHashes, this, toBomHash]
  · intro hno
    rw [hco.hashes, hmh]
    unfold getHashes
    cases hlk : (packageHashes lock).lookup p.id with
    | none => rfl
    | some b =>
      exfalso
      obtain ⟨l, hl, e1, e2⟩ := (packageHashes_lookup hpw).1 hlk
      rw [hpid] at e1
      obtain ⟨l1, l2⟩ := hplain l hl
      obtain ⟨f1, f2, f3⟩ := (pkgid_inj l1 l2 hn hv).1 e1
      rw [hno l hl f1 f2 f3] at e2; cases e2

/-- C19: without a readable lock file no component has a hash. -/
theorem C19_no_lock (hmd : Spec.MetadataOk md nodes) (h : createSboms env md config = .ok sboms)
    (hs : Spec.At sboms s md.workspaceMembers root)
    (hno : ∀ path, locateCargoLock env s.manifestPath = some path → env.loadLock path = none) :
    ∀ c, IsComponentOf s c → c.hashes = none := by
  intro c hc
  obtain ⟨rp, hrp, hrid, hall⟩ := package_of hmd h hs
  obtain ⟨p, hp, hco⟩ := hall c hc
  have hman : s.manifestPath = rp.manifestPath := by
    obtain ⟨i, kinds, pr, pkg, comps, m, h1, h2, sh, sel⟩ := sbom_shape hmd h hs
    have := (lookup_indexPackages hmd.packagesNodup).2 ⟨hrp, hrid⟩
    rw [sh.pkgOk] at this
    cases this
    exact sh.manifest
  have hmh : memberHashes env rp.manifestPath = [] := by
    unfold memberHashes
    rw [← hman]
    cases hl : locateCargoLock env s.manifestPath with
    | none => rfl
    | some path => simp [hno path hl]
  rw [hco.hashes, hmh]; rfl

/-- Non-vacuity: an example with ids in cargo's format. -/
private def lockMd : CargoMetadata where
  packages := [Example.rootPkg, { Example.pkg "a" with id := "registry+https://r#a@1.0.0" }]
  workspaceMembers := ["root"]
  resolve := some
    [{ id := "root", deps := [Example.dep "registry+https://r#a@1.0.0" [.normal]],
       dependencies := ["registry+https://r#a@1.0.0"] },
     { id := "registry+https://r#a@1.0.0", deps := [], dependencies := [] }]
  workspaceRoot := ["w"]
example : ∃ s, createSboms Example.env lockMd Example.config = .ok [s] ∧
    (Spec.components s.bom).map (fun c => (c.bomRef, c.hashes)) =
      [(some "registry+https://r#a@1.0.0", some [{
        alg := .sha256,
        content := "abababababababababababababababababababababababababababababababab" }])] :=
  ⟨_, rfl, by decide +kernel⟩

/-! ## C20: external references -/

/-- C20: the external references of a component are exactly the valid URIs among
documentation, homepage, links and repository of its package, in this order and with these
types; the field is absent if there are none. -/
theorem C20_external_references (hmd : Spec.MetadataOk md nodes)
    (h : createSboms env md config = .ok sboms) (hs : Spec.At sboms s md.workspaceMembers root) :
    ∀ c, IsComponentOf s c → ∃ p ∈ md.packages, c.bomRef = some p.id ∧
      let wanted : List (ExternalReferenceType × String) :=
        (p.documentation.toList.map (ExternalReferenceType.documentation, ·) ++ p.homepage.toList.map (ExternalReferenceType.website, ·) ++
          p.links.toList.map (ExternalReferenceType.other, ·) ++ p.repository.toList.map (ExternalReferenceType.vcs, ·)).filter
            (fun x => env.uriValid x.2)
      (wanted = [] → c.externalReferences = none) ∧
      (wanted ≠ [] → ∃ refs, c.externalReferences = some refs ∧
        refs.map (·.externalReferenceType) = wanted.map (·.1) ∧
        refs.map (·.url) = wanted.map (fun x =>
          if startsWith x.2 "urn:cdx" then .bomLink x.2 else .url x.2) ∧
        ∀ r ∈ refs, r.comment = none ∧ r.hashes = none) := by
  intro c hc
  obtain ⟨rp, _, _, hall⟩ := package_of hmd h hs
  obtain ⟨p, hp, hco⟩ := hall c hc
  refine ⟨p, hp, hco.ref, ?_⟩
  rw [hco.refs]
  have hfold : ∀ (fs : List (ExternalReferenceType × Option String)) (acc : List ExternalReference),
      fs.foldl (pushReference env) acc = acc ++
        ((fs.flatMap fun f => f.2.toList.map (f.1, ·)).filter fun x => env.uriValid x.2).map
          fun x => ExternalReference.new x.1 x.2 := by
    intro fs
    induction fs with
    | nil => intro acc; simp
    | cons f fs ih =>
      intro acc
      rw [List.foldl_cons, ih]
      obtain ⟨t, o⟩ := f
      cases o with
      | none => simp [pushReference]
      | some u =>
        by_cases hu : env.uriValid u = true <;> simp [pushReference, hu, List.filter_cons]
  have e : getExternalReferences env p =
      let refs := ((p.documentation.toList.map (ExternalReferenceType.documentation, ·) ++
        p.homepage.toList.map (ExternalReferenceType.website, ·) ++
          p.links.toList.map (ExternalReferenceType.other, ·) ++ p.repository.toList.map (ExternalReferenceType.vcs, ·)).filter
            (fun x => env.uriValid x.2)).map fun x => ExternalReference.new x.1 x.2
      if refs.isEmpty then none else some refs := by
    unfold getExternalReferences referenceFields
    rw [hfold]
    simp [List.flatMap_cons]
  rw [e]
  simp only
  generalize hw : ((p.documentation.toList.map (ExternalReferenceType.documentation, ·) ++
        p.homepage.toList.map (ExternalReferenceType.website, ·) ++
          p.links.toList.map (ExternalReferenceType.other, ·) ++ p.repository.toList.map (ExternalReferenceType.vcs, ·)).filter
            (fun x => env.uriValid x.2)) = wanted
  constructor
  · intro hwe; subst hwe; rfl
  · intro hwe
    refine ⟨wanted.map fun x => ExternalReference.new x.1 x.2, ?_, ?_, ?_, ?_⟩
    · rw [if_neg (by simpa using hwe)]
    · simp [List.map_map, Function.comp_def, ExternalReference.new]
    · simp [List.map_map, Function.comp_def, ExternalReference.new, RefUri.ofUrl]
    · intro r hr
      obtain ⟨x, _, rfl⟩ := List.mem_map.1 hr
      exact ⟨rfl, rfl⟩

/-- Non-vacuity: the example root has a valid documentation link and an invalid repository. -/
example : ∃ s, createSboms Example.env Example.md Example.config = .ok [s] ∧
    ((Spec.topComponent s.bom).bind (·.externalReferences)).map (List.map fun r =>
      (r.externalReferenceType, r.url)) = some [(.documentation, .url "http://docs")] ∧
    Example.rootPkg.repository = some "no uri" :=
  ⟨_, rfl, by decide +kernel, rfl⟩

/-! ## C21: authors -/

/-- C21: `Name <mail>` gives a contact with that name and mail if the mail is valid, and is
dropped otherwise; any white space around the name is removed. -/
theorem C21_name_and_mail (pre name post mail : List Char)
    (hpre : ∀ c ∈ pre, isWhitespace c = true) (hpost : ∀ c ∈ post, isWhitespace c = true)
    (hn : pre ++ name ++ post ≠ []) (hn1 : ∀ c, name.head? = some c → isWhitespace c = false)
    (hn2 : ∀ c, name.getLast? = some c → isWhitespace c = false)
    (hlt : '<' ∉ name) (hm : mail ≠ []) (hgt : '>' ∉ mail) :
    parseAuthor env (String.ofList (pre ++ name ++ post ++ '<' :: mail ++ ['>'])) =
      if env.emailValid (String.ofList mail) then
        some { name := some (normalizedString (String.ofList name)),
               email := some (normalizedString (String.ofList mail)) }
      else none := by
  have hws : isWhitespace '<' = false := by decide
  have hlt' : '<' ∉ pre ++ name ++ post := by
    simp only [List.mem_append]
    rintro ((h | h) | h)
    · rw [hpre _ h] at hws; cases hws
    · exact hlt h
    · rw [hpost _ h] at hws; cases hws
  unfold parseAuthor
  rw [String.toList_ofList, authorCaptures_full hn hlt' hm hgt]
  simp only
  rw [trimChars_eq hpre hpost hn1 hn2]
  rfl

/-- C21: a string without `<` gives a contact with that name, trimmed, and no mail. -/
theorem C21_name_only (pre name post : List Char)
    (hpre : ∀ c ∈ pre, isWhitespace c = true) (hpost : ∀ c ∈ post, isWhitespace c = true)
    (hn : pre ++ name ++ post ≠ []) (hn1 : ∀ c, name.head? = some c → isWhitespace c = false)
    (hn2 : ∀ c, name.getLast? = some c → isWhitespace c = false) (hlt : '<' ∉ name) :
    parseAuthor env (String.ofList (pre ++ name ++ post)) =
      some { name := some (normalizedString (String.ofList name)) } := by
  have hws : isWhitespace '<' = false := by decide
  have hlt' : '<' ∉ pre ++ name ++ post := by
    simp only [List.mem_append]
    rintro ((h | h) | h)
    · rw [hpre _ h] at hws; cases hws
    · exact hlt h
    · rw [hpost _ h] at hws; cases hws
  unfold parseAuthor
  rw [String.toList_ofList, authorCaptures_plain hn hlt']
  simp only
  rw [trimChars_eq hpre hpost hn1 hn2]
  rfl

/-- C21: any other text is kept as the name: the author is dropped only because of a mail
address that the address check rejects. -/
theorem C21_dropped_only_for_mail (a : String) :
    (parseAuthor env a = none → ∃ name mail, a.toList = name ++ '<' :: mail ++ ['>'] ∧
      '<' ∉ name ∧ '>' ∉ mail ∧ env.emailValid (String.ofList mail) = false) ∧
    (∀ c, parseAuthor env a = some c → c.bomRef = none ∧ c.phone = none ∧
      ∃ n, c.name = some (normalizedString n) ∧ n.toList <:+: a.toList) := by
  unfold parseAuthor
  cases hc : authorCaptures a.toList with
  | none =>
    simp only [reduceCtorEq, false_implies, true_and, Option.some.injEq]
    rintro c rfl
    exact ⟨rfl, rfl, a, rfl, List.infix_refl _⟩
  | some ne =>
    obtain ⟨n, e⟩ := ne
    simp only
    have hshape : n <+: a.toList ∧ '<' ∉ n ∧ ∀ m, e = some m → a.toList = n ++ '<' :: m ++ ['>'] ∧ '>' ∉ m := by
      unfold authorCaptures at hc
      simp only at hc
      split at hc
      · cases hc
      · have hno : '<' ∉ a.toList.takeWhile (· ≠ '<') := by
          intro hm; have := mem_takeWhile_imp hm; simp at this
        split at hc
        · cases hc
          exact ⟨List.takeWhile_prefix _, hno, by simp⟩
        · next d rest hd =>
          obtain ⟨h1, h2⟩ := dropWhile_cons hd
          have hdlt : d = '<' := by simpa using h1
          subst hdlt
          split at hc
          · cases hc
          · split at hc
            · next hd2 =>
              cases hc
              obtain ⟨h3, h4⟩ := dropWhile_cons hd2
              refine ⟨List.takeWhile_prefix _, hno, ?_⟩
              intro m hm0
              cases hm0
              refine ⟨?_, ?_⟩
              · rw [List.append_assoc, List.cons_append, ← h4]; exact h2
              · intro hm; have := mem_takeWhile_imp hm; simp at this
            · cases hc
    obtain ⟨hpre, hlt, hm⟩ := hshape
    have hinf : (trimChars n) <:+: a.toList := by
      refine List.IsInfix.trans ?_ hpre.isInfix
      unfold trimChars trimStartChars
      have h1 := List.dropWhile_suffix (l := n) isWhitespace
      have h2 := List.dropWhile_suffix (l := (n.dropWhile isWhitespace).reverse) isWhitespace
      have h3 := List.reverse_prefix.2 h2
      rw [List.reverse_reverse] at h3
      exact h3.isInfix.trans h1.isInfix
    cases e with
    | none =>
      simp only [reduceCtorEq, false_implies, true_and, Option.some.injEq]
      rintro c rfl
      exact ⟨rfl, rfl, _, rfl, by simpa using hinf⟩
    | some m =>
      obtain ⟨h1, h2⟩ := hm m rfl
      simp only
      constructor
      · intro h
        split at h
        · cases h
        · next hv => exact ⟨n, m, h1, hlt, h2, by simpa using hv⟩
      · intro c h
        split at h
        · cases h
          exact ⟨rfl, rfl, _, rfl, by simpa using hinf⟩
        · cases h

/-- C21: any text of another form, empty or with a `<` that does not begin a mail address at the end,
is kept unchanged as the name, without a mail. -/
theorem C21_other_kept (a : String) (h1 : a = "" ∨ '<' ∈ a.toList)
    (h2 : ∀ name mail, name ≠ [] → '<' ∉ name → mail ≠ [] → '>' ∉ mail →
      a.toList ≠ name ++ '<' :: mail ++ ['>']) :
    parseAuthor env a = some { name := some (normalizedString a) } := by
  have key : authorCaptures a.toList = none := by
    unfold authorCaptures
    simp only
    split
    · rfl
    · next hne =>
      have hno : '<' ∉ a.toList.takeWhile (· ≠ '<') := by
        intro hm; have := mem_takeWhile_imp hm; simp at this
      split
      · next hd =>
        exfalso
        have e : a.toList.takeWhile (· ≠ '<') = a.toList := by
          have := List.takeWhile_append_dropWhile (p := (· ≠ '<')) (l := a.toList)
          rw [hd, List.append_nil] at this
          exact this
        rw [e] at hne hno
        rcases h1 with h1 | h1
        · subst h1; exact hne rfl
        · exact hno h1
      · next d rest hd =>
        obtain ⟨h3, h4⟩ := dropWhile_cons hd
        have hdlt : d = '<' := by simpa using h3
        subst hdlt
        split
        · rfl
        · next hme =>
          split
          · next hd2 =>
            exfalso
            obtain ⟨h5, h6⟩ := dropWhile_cons hd2
            refine h2 _ (rest.takeWhile (· ≠ '>')) (by simpa using hne) hno (by simpa using hme) ?_ ?_
            · intro hm; have := mem_takeWhile_imp hm; simp at this
            · rw [List.append_assoc, List.cons_append, ← h6]; exact h4
          · rfl
  unfold parseAuthor
  rw [key]
  rfl

/-- Non-vacuity: a mail address that is not at the end, and one without a name. -/
example : parseAuthor Example.env "Jo <jo@example.org> Doe" =
      some { name := some "Jo <jo@example.org> Doe" } ∧
    parseAuthor Example.env "<jo@example.org>" = some { name := some "<jo@example.org>" } :=
  ⟨by decide +kernel, by decide +kernel⟩

/-- C21: the authors of the SBOM are the contacts of the authors of the root package, one by one
and in order, dropped ones not affecting the others; the field is absent if none remains. -/
theorem C21_authors (hmd : Spec.MetadataOk md nodes) (h : createSboms env md config = .ok sboms)
    (hs : Spec.At sboms s md.workspaceMembers root) :
    ∃ p ∈ md.packages, p.id = root ∧ ∃ m, s.bom.metadata = some m ∧
      m.authors.getD [] = p.authors.flatMap (fun a => (parseAuthor env a).toList) ∧
      m.authors ≠ some [] := by
  obtain ⟨i, kinds, pr, pkg, comps, m, h1, h2, sh, sel⟩ := sbom_shape hmd h hs
  obtain ⟨a, b⟩ := (lookup_indexPackages hmd.packagesNodup).1 sh.pkgOk
  obtain ⟨tms, top, props, _, m2, _, m4⟩ := createMetadata_ok sh.mdOk
  simp only at m4
  have e : createAuthors env pkg = pkg.authors.flatMap (fun a => (parseAuthor env a).toList) := by
    unfold createAuthors
    induction pkg.authors with
    | nil => rfl
    | cons x xs ih => cases hx : parseAuthor env x <;> simp [List.filterMap_cons, hx, ih]
  refine ⟨pkg, a, b, m, by simp [sh.bom], ?_, ?_⟩
  · rw [← e, m4]
    simp only
    split
    · next he => simp only [List.isEmpty_iff] at he; rw [he]; rfl
    · rfl
  · rw [m4]
    simp only
    split
    · simp
    · next he => simpa using he

/-- Non-vacuity: one valid author, one with an invalid mail. -/
example : ∃ s, createSboms Example.env Example.md Example.config = .ok [s] ∧
    s.bom.metadata.bind (·.authors) = some
      [{ name := some "Jo Doe", email := some "jo@example.org" }] ∧
    Example.rootPkg.authors = ["Jo Doe <jo@example.org>", "X <bad>"] :=
  ⟨_, rfl, by decide +kernel, rfl⟩
example : parseAuthor Example.env "  Jo <x> y" = some { name := some "  Jo <x> y" } := by
  decide +kernel

/-! ## C23: VCS URL of a git dependency -/

/-- C23: `base?query#commit` becomes `base@commit`. -/
theorem C23_query_and_commit (base query commit : List Char)
    (hb : '?' ∉ base ∧ '#' ∉ base) (hq : '#' ∉ query) :
    sourceToVcsUrlChars (base ++ '?' :: query ++ '#' :: commit) = base ++ '@' :: commit := by
  unfold sourceToVcsUrlChars
  have h1 : splitOnceChars '?' (base ++ '?' :: query ++ '#' :: commit) =
      some (base, query ++ '#' :: commit) := by
    rw [List.append_assoc, List.cons_append]; exact splitOnceChars_append hb.1
  have h2 : splitOnceChars '#' (base ++ '?' :: query ++ '#' :: commit) =
      some (base ++ '?' :: query, commit) := by
    refine splitOnceChars_append ?_
    simp only [List.mem_append, List.mem_cons]
    rintro (h | h | h)
    · exact hb.2 h
    · exact absurd h (by decide)
    · exact hq h
  rw [h1, h2]

/-- C23: `base#commit` becomes `base@commit`. -/
theorem C23_commit_only (base commit : List Char)
    (hb : '?' ∉ base ∧ '#' ∉ base) (hc : '?' ∉ commit ∧ '#' ∉ commit) :
    sourceToVcsUrlChars (base ++ '#' :: commit) = base ++ '@' :: commit := by
  unfold sourceToVcsUrlChars
  have h1 : splitOnceChars '?' (base ++ '#' :: commit) = none := by
    rw [splitOnceChars_none]
    simp only [List.mem_append, List.mem_cons]
    rintro (h | h | h)
    · exact hb.1 h
    · exact absurd h (by decide)
    · exact hc.1 h
  have h2 : splitOnceChars '#' (base ++ '#' :: commit) = some (base, commit) :=
    splitOnceChars_append hb.2
  rw [h1, h2]
  have hmap : ∀ l : List Char, '#' ∉ l → l.map (fun c => if c = '#' then '@' else c) = l := by
    intro l hl
    induction l with
    | nil => rfl
    | cons c l ih =>
      have : c ≠ '#' := by rintro rfl; exact hl List.mem_cons_self
      simp [this, ih (fun h => hl (List.mem_cons_of_mem _ h))]
  simp [hmap base hb.2, hmap commit hc.2]

/-- C23: `base?key=value` (key `branch`, `tag` or `rev`) becomes `base@value`. -/
theorem C23_reference (base key value : List Char)
    (hk : key = "branch=".toList ∨ key = "tag=".toList ∨ key = "rev=".toList)
    (hb : '?' ∉ base ∧ '#' ∉ base) (hv : '#' ∉ value ∧ '&' ∉ value) :
    sourceToVcsUrlChars (base ++ '?' :: (key ++ value)) = base ++ '@' :: value := by
  unfold sourceToVcsUrlChars
  have hkq : '#' ∉ key ∧ '&' ∉ key := by rcases hk with rfl | rfl | rfl <;> decide
  have h1 : splitOnceChars '?' (base ++ '?' :: (key ++ value)) = some (base, key ++ value) :=
    splitOnceChars_append hb.1
  have h2 : splitOnceChars '#' (base ++ '?' :: (key ++ value)) = none := by
    rw [splitOnceChars_none]
    simp only [List.mem_append, List.mem_cons]
    rintro (h | h | h | h)
    · exact hb.2 h
    · exact absurd h (by decide)
    · exact hkq.1 h
    · exact hv.1 h
  have h3 : ∀ l : List Char, '&' ∉ l → splitChars '&' l = [l] := by
    intro l hl
    induction l with
    | nil => rfl
    | cons c l ih =>
      have : c ≠ '&' := by rintro rfl; exact hl List.mem_cons_self
      simp [splitChars, this, ih (fun h => hl (List.mem_cons_of_mem _ h))]
  rw [h1, h2]
  simp only
  rw [h3 _ (by simp [hkq.2, hv.2]), refParam_first hk]
  rfl

/-- C23: without query and commit the URL is unchanged. -/
theorem C23_plain (url : List Char) (h : '?' ∉ url ∧ '#' ∉ url) : sourceToVcsUrlChars url = url := by
  unfold sourceToVcsUrlChars
  rw [splitOnceChars_none.2 h.1, splitOnceChars_none.2 h.2]

/-- C23 at the level of the package URL: for a git source the only qualifier is the VCS URL. -/
theorem C23_qualifier (p rp : Package) (ws : FPath) (rest : String)
    (h : p.source = some ("git+" ++ rest)) :
    purlQualifiers env p rp ws =
      .ok [("vcs_url", String.ofList (sourceToVcsUrlChars ("git+" ++ rest).toList))] := by
  unfold purlQualifiers
  rw [h]
  have h1 : isCratesIo ("git+" ++ rest) = false := by
    unfold isCratesIo
    rw [beq_eq_false_iff_ne]
    intro e
    have := congrArg (fun s => s.toList.head?) e
    simp [String.toList_append] at this
  have h2 : splitOnceChars '+' ("git+" ++ rest).toList = some ("git".toList, rest.toList) := by
    have : ("git+" ++ rest).toList = "git".toList ++ '+' :: rest.toList := by simp
    rw [this]
    exact splitOnceChars_append (by decide)
  have h3 : startsWith ("git+" ++ rest) "git+" = true := startsWith_iff.2 ⟨rest, rfl⟩
  simp only [h1, h2, h3, sourceToVcsUrl, bind, Except.bind, if_true, if_false, Bool.false_eq_true]

/-- Non-vacuity. -/
example : sourceToVcsUrlChars "git+https://h/r?branch=dev#0a1b".toList =
    "git+https://h/r@0a1b".toList := by decide
example : sourceToVcsUrlChars "git+https://h/r?tag=v1".toList = "git+https://h/r@v1".toList := by
  decide

/-- C23: why the hypotheses are needed: a `?` after the `#` moves the split point, and several
`#` are all replaced. -/
theorem C23_odd_separators :
    sourceToVcsUrlChars "git+https://h/r#a?b".toList = "git+https://h/r#a@a?b".toList ∧
    sourceToVcsUrlChars "git+https://h/r#a#b".toList = "git+https://h/r@a@b".toList := by decide

end Cdx.Props
