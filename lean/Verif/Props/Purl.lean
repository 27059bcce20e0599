import Verif.Props.Component
import Verif.Props.Config

/-!
# Properties C49-C52: identity of components, package URLs, the cargo invocation
-/

set_option linter.unusedSimpArgs false

namespace Cdx.Props
open Cdx OMap

variable {env : Env} {md : CargoMetadata} {nodes : List Node} {config : SbomConfig}
  {sboms : List GeneratedSbom} {s : GeneratedSbom} {root : PackageId}

/-! ## C49 -/

private theorem replaceCrLf_id {l : List Char} (h : '\r' ∉ l) : replaceCrLf l = l := by
  fun_induction replaceCrLf l <;> grind

private theorem replaceCrLfTab_id {l : List Char} (h : '\r' ∉ l ∧ '\n' ∉ l ∧ '\t' ∉ l) :
    replaceCrLfTab l = l := by
  unfold replaceCrLfTab
  refine (List.map_congr_left ?_).trans (List.map_id l)
  intro c hc
  have : isCrLfTab c = false := by
    simp only [isCrLfTab, Bool.or_eq_false_iff, beq_eq_false_iff_ne]
    refine ⟨⟨?_, ?_⟩, ?_⟩
    · rintro rfl; exact h.1 hc
    · rintro rfl; exact h.2.1 hc
    · rintro rfl; exact h.2.2 hc
  simp [this]

/-- A text without line breaks and tabs is its own normalisation. -/
theorem normalizedString_id {t : String}
    (h : '\r' ∉ t.toList ∧ '\n' ∉ t.toList ∧ '\t' ∉ t.toList) : normalizedString t = t := by
  unfold normalizedString
  rw [replaceCrLf_id h.1, replaceCrLfTab_id h]
  exact String.ofList_toList

private theorem trim_id {t : String} (h : ∀ c ∈ t.toList, isWhitespace c = false) : trim t = t := by
  unfold trim
  have := trimChars_eq (w := []) (v := []) (l := t.toList) (by simp) (by simp)
    (fun c hc => h c (List.mem_of_mem_head? hc))
    (fun c hc => h c (List.mem_of_getLast? hc))
  simp only [List.nil_append, List.append_nil] at this
  rw [this]
  exact String.ofList_toList

/-- C49: every component describes one package: reference, name, version, description and
authors are those of the package (line breaks and tabs become spaces, the name is trimmed). -/
theorem C49_identity (hmd : Spec.MetadataOk md nodes) (h : createSboms env md config = .ok sboms)
    (hs : Spec.At sboms s md.workspaceMembers root) :
    ∀ c, IsComponentOf s c → ∃ p ∈ md.packages, c.bomRef = some p.id ∧
      ((∀ x ∈ p.name.toList, isWhitespace x = false) → c.name = p.name) ∧
      ('\r' ∉ p.version.toList ∧ '\n' ∉ p.version.toList ∧ '\t' ∉ p.version.toList →
        c.version = some p.version) ∧
      (p.description = none → c.description = none) ∧
      (∀ d, p.description = some d → c.description = some (normalizedString d)) ∧
      (p.authors = [] → c.author = none) ∧
      (p.authors ≠ [] → c.author = some (normalizedString (joinStr ", " p.authors))) := by
  intro c hc
  obtain ⟨rp, _, _, ⟨top, h3, h4⟩, h5⟩ := described hmd h hs
  have : ∃ p ∈ md.packages, ComponentOf env config md.workspaceRoot rp p c := by
    rcases hc with hc | hc
    · rw [h3] at hc; cases hc; exact ⟨rp, ‹_›, h4⟩
    · exact h5 c hc
  obtain ⟨p, hp, hco⟩ := this
  refine ⟨p, hp, hco.ref, ?_, ?_, ?_, ?_, ?_, ?_⟩
  · intro hw
    rw [hco.name, trim_id hw]
    refine normalizedString_id ⟨?_, ?_, ?_⟩ <;> intro hm <;> exact absurd (hw _ hm) (by decide)
  · intro hw; rw [hco.version, normalizedString_id hw]
  · intro hd; rw [hco.description, hd]; rfl
  · intro d hd; rw [hco.description, hd]; rfl
  · intro ha; rw [hco.author, ha]; rfl
  · intro ha; rw [hco.author, if_neg (by simpa using ha)]

/-- Non-vacuity. -/
example : ∃ s, createSboms Example.env Example.md Example.config = .ok [s] ∧
    (Spec.components s.bom).map (fun c => (c.name, c.version, c.bomRef)) =
      [("a", some "1.0.0", some "a"), ("b", some "1.0.0", some "b"), ("c", some "1.0.0", some "c")] ∧
    (Spec.topComponent s.bom).bind (·.author) = some "Jo Doe <jo@example.org>, X <bad>" :=
  ⟨_, rfl, by decide +kernel, by decide +kernel⟩

/-! ## C50: package URLs -/

/-- Following a relative path from a directory. -/
def follow : List String → List String → List String
  | dir, [] => dir
  | dir, ".." :: rest => follow dir.dropLast rest
  | dir, "." :: rest => follow dir rest
  | dir, n :: rest => follow (dir ++ [n]) rest

private theorem follow_up (dir : List String) (base rest : List String) :
    follow (dir ++ base) (base.map (fun _ => "..") ++ rest) = follow dir rest := by
  generalize hn : base.length = n
  induction n generalizing base rest with
  | zero => rw [List.eq_nil_of_length_eq_zero hn]; simp
  | succ n ih =>
    obtain ⟨base, b, rfl⟩ : ∃ base' b, base = base' ++ [b] := by
      rcases List.eq_nil_or_concat base with rfl | ⟨l, b, e⟩
      · simp at hn
      · exact ⟨l, b, by simpa using e⟩
    have ih := ih base rest (by simpa using hn)
    have : (base ++ [b]).map (fun _ => "..") ++ rest =
        ".." :: (base.map (fun _ => "..") ++ rest) := by
      have : ∀ l : List String, l.map (fun _ => "..") ++ [".."] = ".." :: l.map (fun _ => "..") := by
        intro l; induction l with
        | nil => rfl
        | cons a l ih => simp [ih]
      rw [List.map_append, List.map_singleton, this]
      rfl
    rw [this]
    simp only [follow]
    rw [← List.append_assoc, List.dropLast_concat]
    exact ih

private theorem follow_down (dir p : List String) (h : ∀ c ∈ p, c ≠ ".." ∧ c ≠ ".") :
    follow dir p = dir ++ p := by
  induction p generalizing dir with
  | nil => simp [follow]
  | cons c p ih =>
    have ⟨h1, h2⟩ := h c List.mem_cons_self
    rw [follow]
    · rw [ih _ (fun x hx => h x (List.mem_cons_of_mem _ hx))]; simp
    · exact fun e => h1 e
    · exact fun e => h2 e

private theorem follow_diff (dir p base : List String) (h : ∀ c ∈ p, c ≠ ".." ∧ c ≠ ".") :
    follow (dir ++ base) (FPath.diff p base) = dir ++ p := by
  fun_induction FPath.diff p base generalizing dir with
  | case1 p b base ih =>
    have := ih (dir ++ [b]) (fun x hx => h x (List.mem_cons_of_mem _ hx))
    simpa using this
  | case2 c p b base hne =>
    rw [follow_up, follow_down _ _ h]
  | case3 p base hnot =>
    rw [follow_up, follow_down _ _ h]

private theorem splitChars_join (sep : Char) (ls : List (List Char)) (hne : ls ≠ [])
    (h : ∀ l ∈ ls, sep ∉ l) : splitChars sep (List.intercalate [sep] ls) = ls := by
  have one : ∀ l : List Char, sep ∉ l → splitChars sep l = [l] := by
    intro l hl
    induction l with
    | nil => rfl
    | cons c l ih =>
      have : c ≠ sep := by rintro rfl; exact hl List.mem_cons_self
      simp [splitChars, this, ih (fun h => hl (List.mem_cons_of_mem _ h))]
  have app : ∀ l r : List Char, sep ∉ l → splitChars sep (l ++ sep :: r) = l :: splitChars sep r := by
    intro l r hl
    induction l with
    | nil => simp [splitChars]
    | cons c l ih =>
      have : c ≠ sep := by rintro rfl; exact hl List.mem_cons_self
      simp [splitChars, this, ih (fun h => hl (List.mem_cons_of_mem _ h))]
  match ls, hne with
  | [l], _ => simpa [List.intercalate] using one l (h l (by simp))
  | l :: m :: rest, _ =>
    have ih := splitChars_join sep (m :: rest) (by simp) (fun x hx => h x (List.mem_cons_of_mem _ hx))
    have : List.intercalate [sep] (l :: m :: rest) = l ++ sep :: List.intercalate [sep] (m :: rest) := by
      simp [List.intercalate]
    rw [this, app l _ (h l (by simp)), ih]

/-- The components of a relative path given as text. -/
def pathParts (rel : String) : List String := splitStr '/' rel

private theorem pathParts_join (ls : List String) (hne : ls ≠ []) (h : ∀ l ∈ ls, '/' ∉ l.toList) :
    pathParts (joinStr "/" ls) = ls := by
  unfold pathParts splitStr joinStr
  rw [String.toList_ofList]
  have : "/".toList = ['/'] := rfl
  rw [this, splitChars_join '/' (ls.map String.toList) (by simpa using hne)]
  · simp [List.map_map, Function.comp_def]
  · intro l hl
    obtain ⟨x, hx, rfl⟩ := List.mem_map.1 hl
    exact h x hx

/-- Path components as the operating system gives them: no separator, not empty, not `.` or
`..`. -/
def NormalPath (p : FPath) : Prop := ∀ c ∈ p, '/' ∉ c.toList ∧ c ≠ "" ∧ c ≠ "." ∧ c ≠ ".."

private theorem diff_mem {p base : FPath} {c : String} (h : c ∈ FPath.diff p base) :
    c ∈ p ∨ c = ".." := by
  fun_induction FPath.diff p base <;> grind

private theorem local_dir {package rootPackage : Package} {ws : FPath} {d : String}
    (h : localPackageDir env package rootPackage ws = .ok d) :
    (ws <+: package.manifestPath.dropLast →
      d = if joinStr "/" (FPath.diff package.manifestPath.dropLast rootPackage.manifestPath.dropLast) = ""
        then "." else joinStr "/" (FPath.diff package.manifestPath.dropLast
          rootPackage.manifestPath.dropLast)) ∧
    (¬ ws <+: package.manifestPath.dropLast → d = FPath.absStr package.manifestPath.dropLast) := by
  have par : ∀ q d, FPath.parent q = some d → d = q.dropLast := by
    intro q d hq; unfold FPath.parent at hq
    split at hq
    · cases hq
    · exact (Option.some.inj hq).symm
  unfold localPackageDir at h
  cases hdir : FPath.parent package.manifestPath with
  | none => rw [hdir] at h; cases h
  | some dir =>
    rw [hdir] at h
    have := par _ _ hdir
    subst this
    simp only at h
    by_cases hpre : ws <+: package.manifestPath.dropLast
    · have hb : FPath.startsWith (List.dropLast package.manifestPath) ws = true :=
        List.isPrefixOf_iff_prefix.2 hpre
      rw [if_pos hb] at h
      refine ⟨fun _ => ?_, fun hn => absurd hpre hn⟩
      cases hrd : FPath.parent rootPackage.manifestPath with
      | none => rw [hrd] at h; cases h
      | some rd =>
        rw [hrd] at h
        have := par _ _ hrd
        subst this
        simp only at h
        split at h
        · cases h
        · exact (Except.ok.inj h).symm
    · have hb : ¬ FPath.startsWith (List.dropLast package.manifestPath) ws = true :=
        fun e => hpre (List.isPrefixOf_iff_prefix.1 e)
      rw [if_neg hb] at h
      exact ⟨fun e => absurd e hpre, fun _ => (Except.ok.inj h).symm⟩

private theorem render_eq {o r : Option Purl}
    (h : (match o with
      | none => .ok none
      | some p => if env.debug && !env.purlValid p then
          .error (.panic "assertion failed: validate_purl(purl).is_ok()")
        else .ok (some p) : Res (Option Purl)) = .ok r) : r = o := by
  cases o with
  | none => exact (Except.ok.inj h).symm
  | some u =>
    simp only at h
    split at h
    · cases h
    · exact (Except.ok.inj h).symm

/-- Package and root package of a component. -/
private theorem purl_of (hmd : Spec.MetadataOk md nodes) (h : createSboms env md config = .ok sboms)
    (hs : Spec.At sboms s md.workspaceMembers root) :
    ∃ rp ∈ md.packages, rp.id = root ∧ ∀ c, IsComponentOf s c → ∃ p ∈ md.packages,
      c.bomRef = some p.id ∧ ∃ qs, purlQualifiers env p rp md.workspaceRoot = .ok qs ∧
        c.purl = env.purlRender p.name p.version qs none := by
  obtain ⟨rp, h1, h2, ⟨top, h3, h4⟩, h5⟩ := described hmd h hs
  refine ⟨rp, h1, h2, ?_⟩
  intro c hc
  have : ∃ p ∈ md.packages, ComponentOf env config md.workspaceRoot rp p c := by
    rcases hc with hc | hc
    · rw [h3] at hc; cases hc; exact ⟨rp, ‹_›, h4⟩
    · exact h5 c hc
  obtain ⟨p, hp, hco⟩ := this
  refine ⟨p, hp, hco.ref, ?_⟩
  have hpu := hco.purl
  unfold getPurl at hpu
  simp only [Res.bind_ok] at hpu
  obtain ⟨qs, q1, q2⟩ := hpu
  refine ⟨qs, q1, ?_⟩
  simp only [Option.map_none] at q2
  exact render_eq q2

/-- C50: the package URL of a component is made of the name and version of its package and of
one qualifier that says where the package comes from: none for crates.io, the repository for
another registry, and the directory for a local package: relative to the root package if it
lies in the workspace, absolute otherwise. -/
theorem C50_package_url (hmd : Spec.MetadataOk md nodes) (h : createSboms env md config = .ok sboms)
    (hs : Spec.At sboms s md.workspaceMembers root) :
    ∃ rp ∈ md.packages, rp.id = root ∧ ∀ c, IsComponentOf s c → ∃ p ∈ md.packages,
      c.bomRef = some p.id ∧ ∃ qs, c.purl = env.purlRender p.name p.version qs none ∧
        (p.source = some "registry+https://github.com/rust-lang/crates.io-index" → qs = []) ∧
        (∀ kind url, p.source = some (kind ++ "+" ++ url) → kind = "registry" ∨ kind = "sparse" →
          p.source ≠ some "registry+https://github.com/rust-lang/crates.io-index" →
          qs = [("repository_url", url)]) ∧
        (∀ rest, p.source = some ("git+" ++ rest) →
          qs = [("vcs_url", String.ofList (sourceToVcsUrlChars ("git+" ++ rest).toList))]) ∧
        (p.source = none → ∃ dir, qs = [("download_url", "file://" ++ dir)] ∧
          (NormalPath p.manifestPath → NormalPath rp.manifestPath →
            md.workspaceRoot <+: p.manifestPath.dropLast →
              follow rp.manifestPath.dropLast (pathParts dir) = p.manifestPath.dropLast) ∧
          (¬ md.workspaceRoot <+: p.manifestPath.dropLast →
            dir = "/" ++ joinStr "/" p.manifestPath.dropLast)) := by
  obtain ⟨rp, h1, h2, hall⟩ := purl_of hmd h hs
  refine ⟨rp, h1, h2, ?_⟩
  intro c hc
  obtain ⟨p, hp, href, qs, q1, q2⟩ := hall c hc
  refine ⟨p, hp, href, qs, q2, ?_, ?_, ?_, ?_⟩
  · intro hsrc
    unfold purlQualifiers at q1
    simp [hsrc, isCratesIo] at q1
    exact q1
  · intro kind url hsrc hk hne
    unfold purlQualifiers at q1
    rw [hsrc] at q1
    have hci : isCratesIo (kind ++ "+" ++ url) = false := by
      unfold isCratesIo
      rw [beq_eq_false_iff_ne]
      intro e; exact hne (by rw [hsrc, e])
    have hsp : splitOnceChars '+' (kind ++ "+" ++ url).toList = some (kind.toList, url.toList) := by
      have : (kind ++ "+" ++ url).toList = kind.toList ++ '+' :: url.toList := by simp
      rw [this]
      refine splitOnceChars_append ?_
      rcases hk with rfl | rfl <;> decide
    simp only [hci, hsp, Bool.false_eq_true, if_false] at q1
    have h1 : kind.toList ≠ "git".toList := by rcases hk with rfl | rfl <;> decide
    have h2 : kind.toList = "registry".toList ∨ kind.toList = "sparse".toList := by
      rcases hk with rfl | rfl
      · exact .inl rfl
      · exact .inr rfl
    rw [if_neg h1, if_pos h2] at q1
    cases q1
    rw [String.ofList_toList]
  · intro rest hsrc
    rw [C23_qualifier p rp md.workspaceRoot rest hsrc] at q1
    cases q1; rfl
  · intro hsrc
    unfold purlQualifiers at q1
    rw [hsrc] at q1
    simp only [Res.bind_ok] at q1
    obtain ⟨dir, d1, d2⟩ := q1
    cases d2
    obtain ⟨e1, e2⟩ := local_dir d1
    refine ⟨dir, rfl, ?_, fun hn => e2 hn⟩
    intro hnp hnr hin
    have e1 := e1 hin
    have hp1 : ∀ c ∈ p.manifestPath.dropLast, '/' ∉ c.toList ∧ c ≠ "" ∧ c ≠ "." ∧ c ≠ ".." :=
      fun c hc => hnp c ((List.dropLast_sublist _).subset hc)
    have hf := follow_diff [] p.manifestPath.dropLast rp.manifestPath.dropLast
      (fun c hc => ⟨(hp1 c hc).2.2.2, (hp1 c hc).2.2.1⟩)
    simp only [List.nil_append] at hf
    generalize hdd : FPath.diff p.manifestPath.dropLast rp.manifestPath.dropLast = ls at e1 hf
    have hls : ∀ l ∈ ls, '/' ∉ l.toList ∧ l ≠ "" := by
      intro l hl
      rcases diff_mem (hdd ▸ hl) with hx | rfl
      · exact ⟨(hp1 l hx).1, (hp1 l hx).2.1⟩
      · decide
    cases ls with
    | nil =>
      have : joinStr "/" [] = "" := rfl
      rw [this, if_pos rfl] at e1
      subst e1
      simpa [follow, pathParts, splitStr, splitChars] using hf
    | cons a as =>
      have : joinStr "/" (a :: as) ≠ "" := by
        intro e
        have e := congrArg String.toList e
        have hj : (joinStr "/" (a :: as)).toList = a.toList ++
            (if as = [] then [] else '/' :: (joinStr "/" as).toList) := by
          cases as <;> simp [joinStr, List.intercalate]
        rw [hj] at e
        have : a.toList = [] := (List.append_eq_nil_iff.1 e).1
        exact (hls a List.mem_cons_self).2 (String.toList_inj.1 this)
      rw [if_neg this] at e1
      subst e1
      rw [pathParts_join _ (by simp) (fun l hl => (hls l hl).1)]
      exact hf

/-- Non-vacuity: a workspace member next to the root package. -/
example : localPackageDir Example.env
      { Example.rootPkg with manifestPath := ["w", "libs", "a", "Cargo.toml"] }
      { Example.rootPkg with manifestPath := ["w", "app", "Cargo.toml"] } ["w"] = .ok "../libs/a" ∧
    follow ["w", "app"] (pathParts "../libs/a") = ["w", "libs", "a"] := by decide +kernel
example : purlQualifiers Example.env (Example.pkg "a") Example.rootPkg ["w"] =
    .ok [("repository_url", "https://r")] := by decide +kernel

private theorem stripPrefix_some {p base r : FPath} :
    FPath.stripPrefix p base = some r ↔ p = base ++ r := by
  fun_induction FPath.stripPrefix p base <;> simp_all [eq_comm]

open Classical in
/-- C51: the package URL of a target is that of its package, seen from the package itself, with
the path of the source file relative to the package directory as subpath; a target outside the
package directory has none. -/
theorem C51_target_purl (hmd : Spec.MetadataOk md nodes) (h : createSboms env md config = .ok sboms)
    (hs : Spec.At sboms s md.workspaceMembers root) :
    ∃ p ∈ md.packages, p.id = root ∧ ∃ top subs, Spec.topComponent s.bom = some top ∧
      top.components = some subs ∧ ∃ qs, top.purl = env.purlRender p.name p.version qs none ∧
      ∀ (j : Nat) t, (p.targets.filter (Spec.IsDescribed ·))[j]? = some t →
        ∃ c, subs[j]? = some c ∧
          (∀ rel, t.srcPath = p.manifestPath.dropLast ++ rel →
            c.purl = env.purlRender p.name p.version qs (some (joinStr "/" rel))) ∧
          (¬ p.manifestPath.dropLast <+: t.srcPath → c.purl = none) := by
  obtain ⟨p, hp, hpid, ts, hts, top, subs, c1, c2, c3, _, _, c6⟩ := C17_targets hmd h hs
  obtain ⟨i, kinds, pr, pkg, comps, m, h1, h2, sh, sel⟩ := sbom_shape hmd h hs
  obtain ⟨tms, top2, props, _, m2, m3, m4⟩ := createMetadata_ok sh.mdOk
  have hpk : pkg = p := by
    have := (lookup_indexPackages hmd.packagesNodup).2 ⟨hp, hpid⟩
    rw [sh.pkgOk] at this
    exact Option.some.inj this
  subst hpk
  simp only at m4
  obtain ⟨top', subs', t1, t2, t3⟩ := createToplevel_ok m2
  simp only at t3
  have htop : top2 = top := by
    have := c1
    simp only [Spec.topComponent, sh.bom, m4] at this
    exact Option.some.inj this
  subst htop
  have hsubs : subs' = subs := by
    rw [t3] at c2; exact Option.some.inj c2
  subst hsubs
  obtain ⟨new, e1, e2, e3, _⟩ := targetLoop_ok t2
  simp only [List.nil_append, List.length_nil, Nat.zero_add] at e1 e3
  subst e1
  have hpu := (createComponent_of t1).purl
  unfold getPurl at hpu
  simp only [Res.bind_ok, Option.map_none] at hpu
  obtain ⟨qs, q1, q2⟩ := hpu
  refine ⟨pkg, hp, hpid, top2, subs', c1, c2, qs, ?_, ?_⟩
  · rw [t3]; exact render_eq q2
  · intro j t hj
    rw [filter_described, List.getElem?_map] at hj
    cases hd : (describedTargets (filterTargets pkg.targets))[j]? with
    | none => rw [hd] at hj; cases hj
    | some tt =>
      obtain ⟨t', ty⟩ := tt
      rw [hd] at hj
      cases hj
      obtain ⟨c, d1, d2, _⟩ := e3 j t' ty hd
      refine ⟨c, d1, ?_⟩
      obtain ⟨_, dir, f1, f2⟩ := createSubcomponent_ok d2
      have hdir : dir = pkg.manifestPath.dropLast := by
        unfold FPath.parent at f1
        split at f1
        · cases f1
        · exact (Option.some.inj f1).symm
      subst hdir
      constructor
      · intro rel hrel
        rw [stripPrefix_some.2 hrel] at f2
        simp only at f2
        unfold getPurl at f2
        rw [q1] at f2
        simp only [Res.bind_ok, Except.ok.injEq, exists_eq_left', Option.map_some, toPurlSubpath] at f2
        exact render_eq f2
      · intro hn
        cases hsp : FPath.stripPrefix t'.srcPath pkg.manifestPath.dropLast with
        | some r => exact absurd ⟨r, (stripPrefix_some.1 hsp).symm⟩ hn
        | none => rw [hsp] at f2; exact f2

/-- Non-vacuity: the source file of the binary of the example lies in the package. -/
example : FPath.stripPrefix ["w", "src", "main.rs"] ["w"] = some ["src", "main.rs"] ∧
    joinStr "/" ["src", "main.rs"] = "src/main.rs" := by decide +kernel

/-! ## C52: the cargo invocation -/

/-- C52: what `cargo metadata` is asked: exactly the feature options given on the command line
(all features, no default features, the named features, each independently), and a platform
filter exactly if a single platform is selected. -/
theorem C52_cargo_invocation (a : Args) (cbt : Option String) (host : String) (c : SbomConfig)
    (h : resolveConfig cbt host a = .ok c) :
    (.allFeatures ∈ (metadataCommand a c).features ↔ a.allFeatures = true) ∧
    (.noDefaultFeatures ∈ (metadataCommand a c).features ↔ a.noDefaultFeatures = true) ∧
    (∀ fs, .someFeatures fs ∈ (metadataCommand a c).features ↔
      fs ≠ [] ∧ Spec.AllPieces (fun c => c = ',' ∨ c = ' ') a.features fs) ∧
    (∀ t, c.target = some (.singleTarget t) →
      (metadataCommand a c).otherOptions = ["--filter-platform", t]) ∧
    (c.target = some .allTargets → (metadataCommand a c).otherOptions = []) ∧
    c.target ≠ none := by
  obtain ⟨cli, hcli, _, _, _, hfe, _, _, _, _, ht1, ht2⟩ := C11_precedence_partial cbt host a c h
  obtain ⟨f1, f2⟩ := C12_features_present a cli hcli
  have f3 := C12_features a cli
  have ht : c.target ≠ none := by
    intro hn
    rw [hn] at ht1 ht2
    cases hcb : cbt with
    | none => cases ht1 hcb
    | some t =>
      have : c.target = some (.singleTarget t) := by
        unfold resolveConfig at h
        simp only [hcli, bind, Except.bind, Except.ok.injEq] at h
        subst h
        simp [SbomConfig.merge, SbomConfig.fromEnv, hcb]
      rw [hn] at this; cases this
  unfold metadataCommand
  rw [hfe]
  refine ⟨?_, ?_, ?_, ?_, ?_, ht⟩
  · cases hf : cli.features with
    | none => simp [(f2.1 hf).1]
    | some f =>
      rw [← (f1 f hf).1]
      obtain ⟨x, y, z⟩ := f
      simp only
      cases x <;> cases y <;> cases z <;> simp
  · cases hf : cli.features with
    | none => simp [(f2.1 hf).2.1]
    | some f =>
      rw [← (f1 f hf).2]
      obtain ⟨x, y, z⟩ := f
      simp only
      cases x <;> cases y <;> cases z <;> simp
  · intro fs
    cases hf : cli.features with
    | none =>
      simp only [List.not_mem_nil, false_iff]
      rintro ⟨h1, h2⟩
      rw [(f2.1 hf).2.2] at h2
      cases h2; exact h1 rfl
    | some f =>
      have hpieces := f3 f hcli hf
      have hmem : .someFeatures fs ∈ ((if f.allFeatures = true then [CargoOpt.allFeatures] else []) ++
          if f.noDefaultFeatures = true then [.noDefaultFeatures] else []) ++
            (if f.features.isEmpty = true then [] else [.someFeatures f.features]) ↔
          f.features ≠ [] ∧ fs = f.features := by
        cases f.allFeatures <;> cases f.noDefaultFeatures <;> by_cases hfs : f.features = [] <;>
          simp [hfs]
      simp only
      rw [hmem]
      constructor
      · rintro ⟨h1, rfl⟩; exact ⟨h1, hpieces⟩
      · rintro ⟨h1, h2⟩
        have := (C12_pieces_unique h2 hpieces).1
        subst this; exact ⟨h1, rfl⟩
  · intro t ht; rw [ht]
  · intro ht; rw [ht]

/-- Non-vacuity. -/
example : ∃ c, resolveConfig none "h" { features := ["a,b"], noDefaultFeatures := true } = .ok c ∧
    (metadataCommand { features := ["a,b"], noDefaultFeatures := true } c) =
      { features := [.noDefaultFeatures, .someFeatures ["a", "b"]], verbose := true,
        otherOptions := ["--filter-platform", "h"] } := ⟨_, rfl, by decide +kernel⟩

end Cdx.Props
