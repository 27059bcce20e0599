import Verif.Lemmas.Component
import Verif.Spec.Strings

/-!
# Licenses, hashes, lock file, authors, VCS URLs
-/

set_option linter.unusedSectionVars false
set_option linter.unusedSimpArgs false

namespace Cdx
open OMap

theorem split_first_inj {c : Char} {a a' b b' : List Char} (h : a ++ c :: b = a' ++ c :: b')
    (ha : c ∉ a) (ha' : c ∉ a') : a = a' ∧ b = b' := by
  have h1 := splitOnceChars_append (b := b) ha
  rw [h, splitOnceChars_append ha'] at h1
  cases h1; exact ⟨rfl, rfl⟩

theorem split_last_inj {c : Char} {a a' b b' : List Char} (h : a ++ c :: b = a' ++ c :: b')
    (hb : c ∉ b) (hb' : c ∉ b') : a = a' ∧ b = b' := by
  have h1 := congrArg List.reverse h
  simp only [List.reverse_append, List.reverse_cons, List.append_assoc, List.singleton_append] at h1
  obtain ⟨e1, e2⟩ := split_first_inj h1 (by simpa using hb) (by simpa using hb')
  exact ⟨List.reverse_inj.1 e2, List.reverse_inj.1 e1⟩

/-- Names and versions hold neither `#` nor `@`. -/
def Plain (s : String) : Prop := '#' ∉ s.toList ∧ '@' ∉ s.toList

theorem pkgid_inj {l : LockPackage} {src name version : String} (hn : Plain l.name)
    (hv : Plain l.version) (hn' : Plain name) (hv' : Plain version) :
    pkgid l = src ++ "#" ++ name ++ "@" ++ version ↔
      l.source = some src ∧ l.name = name ∧ l.version = version := by
  constructor
  · intro h
    unfold pkgid at h
    split at h
    · next s hs =>
      have h := congrArg String.toList h
      simp only [String.toList_append, show "#".toList = ['#'] from rfl,
        show "@".toList = ['@'] from rfl, List.append_assoc, List.singleton_append] at h
      have h' : (s.toList ++ '#' :: l.name.toList) ++ '@' :: l.version.toList =
          (src.toList ++ '#' :: name.toList) ++ '@' :: version.toList := by
        simpa using h
      obtain ⟨e1, e2⟩ := split_last_inj h' hv.2 hv'.2
      obtain ⟨e3, e4⟩ := split_last_inj e1 hn.1 hn'.1
      rw [hs, String.toList_inj.1 e3, String.toList_inj.1 e4, String.toList_inj.1 e2]
      exact ⟨rfl, rfl, rfl⟩
    · have h := congrArg String.toList h
      have : '#' ∈ (l.name ++ "@" ++ l.version).toList := by
        rw [h]; simp [show "#".toList = ['#'] from rfl]
      simp only [String.toList_append, List.mem_append, show "@".toList = ['@'] from rfl,
        List.mem_singleton] at this
      rcases this with (h | h) | h
      · exact absurd h hn.1
      · exact absurd h (by decide)
      · exact absurd h hv.1
  · rintro ⟨h1, h2, h3⟩
    simp [pkgid, h1, h2, h3]

theorem packageHashes_lookup {l : List LockPackage} {k : PackageId} {h : Vector UInt8 32}
    (hu : (l.filter (fun p => p.checksum.isSome)).Pairwise fun a b => pkgid a ≠ pkgid b) :
    (packageHashes l).lookup k = some h ↔ ∃ p ∈ l, pkgid p = k ∧ p.checksum = some h := by
  unfold packageHashes
  have key : ∀ (l : List LockPackage) (m : CrateHashes),
      (l.filter (fun p => p.checksum.isSome)).Pairwise (fun a b => pkgid a ≠ pkgid b) →
      ((l.foldl (fun m p => match p.checksum with
        | some h => m.insert (pkgid p) h
        | none => m) m).lookup k = some h ↔
      (∃ p ∈ l, pkgid p = k ∧ p.checksum = some h) ∨
        ((∀ p ∈ l, p.checksum.isSome → pkgid p ≠ k) ∧ m.lookup k = some h)) := by
    intro l
    induction l with
    | nil => intro m _; simp
    | cons p l ih =>
      intro m hu
      rw [List.foldl_cons]
      cases hc : p.checksum with
      | none =>
        simp only [List.filter_cons, hc, Option.isSome_none, Bool.false_eq_true, if_false] at hu
        rw [ih _ hu]
        simp [hc]
      | some x =>
        simp only [List.filter_cons, hc, Option.isSome_some, if_true, List.pairwise_cons] at hu
        rw [ih _ hu.2]
        by_cases hk : pkgid p = k
        · subst hk
          rw [lookup_insert_self]
          constructor
          · rintro (⟨q, hq, e, hqc⟩ | ⟨_, e⟩)
            · exact absurd e.symm (hu.1 q (List.mem_filter.2 ⟨hq, by simp [hqc]⟩))
            · exact .inl ⟨p, by simp, rfl, by rw [hc, e]⟩
          · rintro (⟨q, hq, e, hqc⟩ | ⟨hall, _⟩)
            · rcases List.mem_cons.1 hq with rfl | hq
              · refine .inr ⟨?_, by rw [← hc, hqc]⟩
                intro r hr hrc e'
                exact hu.1 r (List.mem_filter.2 ⟨hr, by simpa using hrc⟩) e'.symm
              · exact absurd e.symm (hu.1 q (List.mem_filter.2 ⟨hq, by simp [hqc]⟩))
            · exact absurd rfl (hall p (by simp) (by simp [hc]))
        · rw [lookup_insert_ne (by exact fun e => hk e.symm)]
          constructor
          · rintro (⟨q, hq, e⟩ | ⟨hall, e⟩)
            · exact .inl ⟨q, List.mem_cons_of_mem _ hq, e⟩
            · refine .inr ⟨?_, e⟩
              intro q hq hqc
              rcases List.mem_cons.1 hq with rfl | hq
              · exact hk
              · exact hall q hq hqc
          · rintro (⟨q, hq, e, hqc⟩ | ⟨hall, e⟩)
            · rcases List.mem_cons.1 hq with rfl | hq
              · exact absurd e hk
              · exact .inl ⟨q, hq, e, hqc⟩
            · exact .inr ⟨fun q hq => hall q (List.mem_cons_of_mem _ hq), e⟩
  refine (key l [] hu).trans ?_
  simp [OMap.lookup]

theorem hexBytes_hexOf (bs : List UInt8) : Spec.HexOf bs (hexBytes bs) := by
  induction bs with
  | nil => exact .nil
  | cons b bs ih =>
    have h : ∀ n, n < 16 → Spec.hexVal (hexDigit n) = some n := by decide
    have hb : b.toNat < 256 := UInt8.toNat_lt b
    exact .cons (h _ (by omega)) (h _ (by omega)) (by omega) ih

/-! ## Lock file lookup -/

theorem mem_ancestors {p d : FPath} : d ∈ FPath.ancestors p ↔ d <+: p := by
  have key : ∀ r : List String, ∀ d, d ∈ ancestorsRev r ↔ d <+: r.reverse := by
    intro r
    induction r with
    | nil => intro d; simp [ancestorsRev]
    | cons c r ih =>
      intro d
      simp only [ancestorsRev, List.mem_cons, ih, List.reverse_cons]
      rw [List.prefix_concat_iff]
  unfold FPath.ancestors
  rw [key, List.reverse_reverse]

theorem ancestors_sorted (p : FPath) :
    (FPath.ancestors p).Pairwise fun a b => b.length < a.length := by
  have key : ∀ r : List String, (ancestorsRev r).Pairwise (fun a b => b.length < a.length) ∧
      ∀ a ∈ ancestorsRev r, a.length ≤ r.length := by
    intro r
    induction r with
    | nil => simp [ancestorsRev]
    | cons c r ih =>
      refine ⟨List.pairwise_cons.2 ⟨?_, ih.1⟩, ?_⟩
      · intro b hb
        have := ih.2 b hb
        simp; omega
      · intro a ha
        rcases List.mem_cons.1 ha with rfl | ha
        · simp
        · have := ih.2 a ha; simp; omega
  exact (key _).1

theorem find?_sorted {α : Type} {q : α → Bool} {l : List α} {f : α → Nat}
    (hs : l.Pairwise fun a b => f b < f a) {x : α} :
    l.find? q = some x ↔ x ∈ l ∧ q x = true ∧ ∀ y ∈ l, f x < f y → q y = false := by
  induction l with
  | nil => simp
  | cons a l ih =>
    rw [List.pairwise_cons] at hs
    rw [List.find?_cons]
    cases ha : q a with
    | true =>
      simp only [Option.some.injEq]
      constructor
      · rintro rfl
        refine ⟨by simp, ha, ?_⟩
        intro y hy hlt
        rcases List.mem_cons.1 hy with rfl | hy
        · omega
        · have := hs.1 y hy; omega
      · rintro ⟨hm, _, hall⟩
        rcases List.mem_cons.1 hm with rfl | hm
        · rfl
        · have := hall a (by simp) (hs.1 x hm); rw [ha] at this; cases this
    | false =>
      rw [ih hs.2]
      constructor
      · rintro ⟨h1, h2, h3⟩
        refine ⟨List.mem_cons_of_mem _ h1, h2, ?_⟩
        intro y hy hlt
        rcases List.mem_cons.1 hy with rfl | hy
        · exact ha
        · exact h3 y hy hlt
      · rintro ⟨h1, h2, h3⟩
        rcases List.mem_cons.1 h1 with rfl | h1
        · rw [ha] at h2; cases h2
        · exact ⟨h1, h2, fun y hy => h3 y (List.mem_cons_of_mem _ hy)⟩

/-! ## Authors -/

theorem trimStart_id {l : List Char} (h : ∀ c, l.head? = some c → isWhitespace c = false) :
    trimStartChars l = l := by
  unfold trimStartChars
  cases l with
  | nil => rfl
  | cons c l => rw [List.dropWhile_cons, h c rfl]; rfl

theorem trimStart_append {w l : List Char} (hw : ∀ c ∈ w, isWhitespace c = true)
    (h : ∀ c, l.head? = some c → isWhitespace c = false) : trimStartChars (w ++ l) = l := by
  induction w with
  | nil => exact trimStart_id h
  | cons c w ih =>
    rw [List.cons_append]
    unfold trimStartChars
    rw [List.dropWhile_cons, hw c List.mem_cons_self]
    exact ih (fun d hd => hw d (List.mem_cons_of_mem _ hd))

/-- Trimming removes exactly the surrounding white space. -/
theorem trimChars_eq {w l v : List Char} (hw : ∀ c ∈ w, isWhitespace c = true)
    (hv : ∀ c ∈ v, isWhitespace c = true) (h1 : ∀ c, l.head? = some c → isWhitespace c = false)
    (h2 : ∀ c, l.getLast? = some c → isWhitespace c = false) : trimChars (w ++ l ++ v) = l := by
  unfold trimChars
  cases l with
  | nil =>
    have : trimStartChars (w ++ [] ++ v) = [] := by
      have := trimStart_append (w := w ++ v) (l := []) (by
        intro c hc; rcases List.mem_append.1 hc with h | h
        · exact hw c h
        · exact hv c h) (by simp)
      simpa using this
    rw [this]; rfl
  | cons x l =>
    rw [List.append_assoc, trimStart_append hw (by simpa using h1), List.reverse_append,
      trimStart_append (by simpa using hv)]
    · exact List.reverse_reverse _
    · intro c hc; rw [List.head?_reverse] at hc; exact h2 c hc

theorem authorCaptures_full {n e : List Char} (hn : n ≠ []) (hnl : '<' ∉ n) (he : e ≠ [])
    (heg : '>' ∉ e) : authorCaptures (n ++ '<' :: e ++ ['>']) = some (n, some e) := by
  unfold authorCaptures
  rw [List.append_assoc, List.cons_append]
  obtain ⟨h1, h2⟩ := takeWhile_append_cons (p := fun x => decide (x ≠ '<')) (a := n) (c := '<')
    (b := e ++ ['>']) (fun x hx => by simp; rintro rfl; exact hnl hx) (by simp)
  obtain ⟨h3, h4⟩ := takeWhile_append_cons (p := fun x => decide (x ≠ '>')) (a := e) (c := '>')
    (b := []) (fun x hx => by simp; rintro rfl; exact heg hx) (by simp)
  simp only [h1, h2, h3, h4]
  simp [hn, he]

theorem authorCaptures_plain {n : List Char} (hn : n ≠ []) (hnl : '<' ∉ n) :
    authorCaptures n = some (n, none) := by
  unfold authorCaptures
  obtain ⟨h1, h2⟩ := takeWhile_all (p := fun x => decide (x ≠ '<')) (a := n)
    (fun x hx => by simp; rintro rfl; exact hnl hx)
  simp only [h1, h2]
  simp [hn]

/-! ## Replacing the license separator -/

theorem replaceSlash_join (l : List Char) :
    replaceSlash l = List.intercalate " OR ".toList (splitChars '/' l) := by
  induction l with
  | nil => rfl
  | cons c l ih =>
    have hr : replaceSlash (c :: l) = (if c = '/' then " OR ".toList else [c]) ++ replaceSlash l := by
      simp [replaceSlash]
    rw [hr, ih]
    by_cases hc : c = '/'
    · subst hc
      have : splitChars '/' ('/' :: l) = [] :: splitChars '/' l := by simp [splitChars]
      rw [this, if_pos rfl]
      cases hs : splitChars '/' l with
      | nil => exfalso; revert hs; unfold splitChars; split <;> (try split) <;> (try split) <;> simp
      | cons p ps => simp [List.intercalate, List.intersperse]
    · rw [if_neg hc]
      cases hs : splitChars '/' l with
      | nil => exfalso; revert hs; unfold splitChars; split <;> (try split) <;> (try split) <;> simp
      | cons p ps =>
        have : splitChars '/' (c :: l) = (c :: p) :: ps := by simp [splitChars, hc, hs]
        rw [this]
        cases ps <;> simp [List.intercalate, List.intersperse]

/-! ## VCS URLs -/

theorem refParam_first {k v : List Char} {rest : List (List Char)}
    (hk : k = "branch=".toList ∨ k = "tag=".toList ∨ k = "rev=".toList) :
    refParam ((k ++ v) :: rest) = some v := by
  unfold refParam
  rcases hk with rfl | rfl | rfl <;> rfl

end Cdx
