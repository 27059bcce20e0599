import Verif.Model.Checks
import Verif.Spec.Checks
import Verif.Lemmas.Regex
import Verif.Lemmas.Base64
import Verif.Lemmas.Strings

/-!
# Single-value checks and the text formats they accept
-/

namespace Cdx

open Spec

set_option linter.unusedSimpArgs false

theorem require_ok (b : Bool) (m : String) : Check.require b m = .ok () ↔ b = true := by
  cases b <;> simp [Check.require]

/-- Two decidable properties of characters agree if they agree on ASCII and both imply ASCII. -/
theorem char_iff {p q : Char → Bool} (hp : ∀ c, p c = true → c.toNat < 128)
    (hq : ∀ c, q c = true → c.toNat < 128)
    (h : ∀ n, n < 128 → p (Char.ofNat n) = q (Char.ofNat n)) (c : Char) : p c = q c := by
  have hc : c = Char.ofNat c.toNat := by simp
  by_cases hlt : c.toNat < 128
  · rw [hc]; exact h _ hlt
  · have h1 : p c = false := by
      cases hh : p c with
      | false => rfl
      | true => exact absurd (hp c hh) hlt
    have h2 : q c = false := by
      cases hh : q c with
      | false => rfl
      | true => exact absurd (hq c hh) hlt
    rw [h1, h2]

theorem ascii_of_mem {s : String} (hs : ∀ c ∈ s.toList, c.toNat < 128) (c : Char)
    (h : decide (c ∈ s.toList) = true) : c.toNat < 128 := hs c (of_decide_eq_true h)

theorem isLowerHex_iff (c : Char) : isLowerHex c = true ↔ LowerHex c := by
  have := char_iff (p := isLowerHex) (q := fun c => decide (c ∈ "0123456789abcdef".toList))
    (by intro c h; simp [isLowerHex, isDigitC] at h; omega)
    (ascii_of_mem (by decide)) (by decide) c
  rw [this]; simp [LowerHex]

theorem isHex_iff (c : Char) : isHex c = true ↔ Hex c := by
  have := char_iff (p := isHex) (q := fun c => decide (c ∈ "0123456789abcdefABCDEF".toList))
    (by intro c h; simp [isHex, isLowerHex, isDigitC] at h; omega)
    (ascii_of_mem (by decide)) (by decide) c
  rw [this]; simp [Hex]

theorem isDigit_iff (c : Char) : isDigitC c = true ↔ Digit c := by
  have := char_iff (p := isDigitC) (q := fun c => decide (c ∈ "0123456789".toList))
    (by intro c h; simp [isDigitC] at h; omega)
    (ascii_of_mem (by decide)) (by decide) c
  rw [this]; simp [Digit]

theorem isNonZero_iff (c : Char) :
    (('1'.toNat ≤ c.toNat && c.toNat ≤ '9'.toNat) = true) ↔ Digit c ∧ c ≠ '0' := by
  have := char_iff (p := fun c : Char => ('1'.toNat ≤ c.toNat && c.toNat ≤ '9'.toNat))
    (q := fun c => decide (c ∈ "0123456789".toList ∧ c ≠ '0'))
    (by intro c h; simp at h; omega)
    (by
      intro c h
      exact ascii_of_mem (s := "0123456789") (by decide) c (by simpa using (of_decide_eq_true h).1))
    (by decide) c
  rw [this]; simp [Digit]

theorem isMimeChar_iff (c : Char) : isMimeChar c = true ↔ MimeChar c := by
  have := char_iff (p := isMimeChar)
    (q := fun c => decide (c ∈ "abcdefghijklmnopqrstuvwxyz0123456789-+.".toList))
    (by
      intro c h
      simp [isMimeChar, isDigitC, isLowerC] at h
      rcases h with (((rfl | rfl) | h) | h) | rfl
      · decide
      · decide
      · omega
      · omega
      · decide)
    (ascii_of_mem (by decide)) (by decide) c
  rw [this]; simp [MimeChar]

theorem lang_rep_lowerHex (n : Nat) (l : List Char) :
    (Re.rep n (.cls isLowerHex)).Lang l ↔ Exactly n LowerHex l := by
  rw [Re.lang_rep_cls]; simp only [isLowerHex_iff, Exactly]

theorem lang_rep_hex (n : Nat) (l : List Char) :
    (Re.rep n (.cls isHex)).Lang l ↔ Exactly n Hex l := by
  rw [Re.lang_rep_cls]; simp only [isHex_iff, Exactly]

theorem reUuid_iff (l : List Char) : reUuid.Lang l ↔ IsUuid l := by
  simp only [reUuid, Re.lang_cat_cons, Re.lang_cat_one, Re.lang_chr, lang_rep_lowerHex, IsUuid]
  constructor
  · rintro ⟨a, _, rfl, ha, _, _, rfl, rfl, b, _, rfl, hb, _, _, rfl, rfl, c, _, rfl, hc, _, _,
      rfl, rfl, d, _, rfl, hd, _, e, rfl, rfl, he⟩
    exact ⟨a, b, c, d, e, ha, hb, hc, hd, he, by simp⟩
  · rintro ⟨a, b, c, d, e, ha, hb, hc, hd, he, rfl⟩
    exact ⟨a, _, rfl, ha, ['-'], _, rfl, rfl, b, _, rfl, hb, ['-'], _, rfl, rfl, c, _, rfl, hc,
      ['-'], _, rfl, rfl, d, _, rfl, hd, ['-'], e, rfl, rfl, he⟩

theorem patUrnUuid_iff (s : String) : patUrnUuid.isMatch s = true ↔ IsUrnUuid s := by
  rw [patUrnUuid, Pattern.isMatch_anchored]
  simp only [Re.lang_cat_cons, Re.lang_cat_one, Re.lang_lit, reUuid_iff, IsUrnUuid]
  constructor
  · rintro ⟨_, u, h, rfl, hu⟩; exact ⟨u, hu, h⟩
  · rintro ⟨u, hu, h⟩; exact ⟨_, u, h, rfl, hu⟩

theorem patMime_iff (s : String) : patMime.isMatch s = true ↔ IsMime s := by
  rw [patMime, Pattern.isMatch_anchored]
  simp only [Re.lang_cat_cons, Re.lang_cat_one, Re.lang_chr, Re.lang_plus_cls, isMimeChar_iff,
    IsMime]
  constructor
  · rintro ⟨a, _, h, ⟨ha, ha'⟩, _, b, rfl, rfl, hb, hb'⟩
    exact ⟨a, b, ha, hb, ha', hb', h⟩
  · rintro ⟨a, b, ha, hb, ha', hb', h⟩
    exact ⟨a, _, h, ⟨ha, ha'⟩, ['/'], b, rfl, rfl, hb, hb'⟩

theorem patBomLink_iff (s : String) : patBomLink.isMatch s = true ↔ IsBomLink s := by
  rw [patBomLink, Pattern.isMatch_anchored]
  simp only [Re.lang_cat_cons, Re.lang_cat_one, Re.lang_chr, Re.lang_lit, Re.lang_star_cls,
    Re.lang_opt, reUuid_iff, isDigit_iff, Re.dot, Re.lang_plus_cls, IsBomLink]
  have hnz (l : List Char) :
      (Re.cls fun c => '1'.toNat ≤ c.toNat && c.toNat ≤ '9'.toNat).Lang l ↔
        ∃ c, l = [c] ∧ Digit c ∧ c ≠ '0' := by
    simp only [Re.Lang, isNonZero_iff]
  simp only [hnz]
  constructor
  · rintro ⟨_, _, h, rfl, u, _, rfl, hu, _, _, rfl, rfl, _, _, rfl, ⟨c, rfl, hc, hc0⟩, ds, f, rfl,
      hds, hf⟩
    refine ⟨u, c :: ds, f, hu, ⟨?_, by simp, by simpa using hc0⟩, ?_, ?_⟩
    · intro d hd
      rcases List.mem_cons.mp hd with rfl | hd
      · exact hc
      · exact hds d hd
    · rcases hf with ⟨_, r, rfl, rfl, hne, hr⟩ | rfl
      · exact .inr ⟨r, rfl, hne, fun hm => by simpa using hr _ hm⟩
      · exact .inl rfl
    · rw [h]; simp
  · rintro ⟨u, n, f, hu, ⟨hn, hne, hn0⟩, hf, h⟩
    obtain ⟨c, ds, rfl⟩ := List.exists_cons_of_ne_nil hne
    refine ⟨_, _, ?_, rfl, u, _, rfl, hu, ['/'], _, rfl, rfl, [c], _, rfl,
      ⟨c, rfl, hn c (by simp), by simpa using hn0⟩, ds, f, rfl, fun d hd => hn d (by simp [hd]), ?_⟩
    · rw [h]; simp
    · rcases hf with rfl | ⟨r, rfl, hr, hnl⟩
      · exact .inr rfl
      · refine .inl ⟨['#'], r, rfl, rfl, hr, ?_⟩
        intro x hx
        simp only [bne_iff_ne, ne_eq]
        rintro rfl
        exact hnl hx

theorem exactly_take {n m : Nat} {P : Char → Prop} {l : List Char} (h : Exactly n P l)
    (hm : m ≤ n) : ∃ a b, Exactly m P a ∧ l = a ++ b :=
  ⟨l.take m, l.drop m, ⟨by simp [h.1, hm], fun c hc => h.2 c (List.mem_of_mem_take hc)⟩, by simp⟩

theorem patHash_iff (s : String) : patHash.isMatch s = true ↔ StartsOrContainsHex s := by
  rw [patHash, Pattern.isMatch_iff]
  simp only [List.mem_cons, List.not_mem_nil, or_false, StartsOrContainsHex]
  constructor
  · rintro ⟨b, rfl | rfl | rfl | rfl | rfl, pre, mid, post, h, hm, hs, he⟩
    · obtain rfl := hs rfl
      exact .inl ⟨mid, post, (lang_rep_hex _ _).mp hm, by simpa using h⟩
    · exact .inr ⟨pre, mid, post, (lang_rep_hex _ _).mp hm, h⟩
    all_goals
      obtain ⟨a, b, ha, rfl⟩ := exactly_take (m := 40) ((lang_rep_hex _ _).mp hm) (by omega)
      exact .inr ⟨pre, a, b ++ post, ha, by rw [h]; simp⟩
  · rintro (⟨a, rest, ha, h⟩ | ⟨pre, a, rest, ha, h⟩)
    · exact ⟨_, .inl rfl, [], a, rest, by simpa using h, (lang_rep_hex _ _).mpr ha, by simp, by simp⟩
    · exact ⟨_, .inr (.inl rfl), pre, a, rest, h, (lang_rep_hex _ _).mpr ha, by simp, by simp⟩

theorem patVers_iff (s : String) : patVers.isMatch s = true ↔
    ∃ r, s.toList = "vers:".toList ++ r ∧ '\n' ∉ r := by
  rw [patVers, Pattern.isMatch_anchored]
  simp only [Re.lang_cat_cons, Re.lang_cat_one, Re.lang_lit, Re.dot, Re.lang_star_cls]
  constructor
  · rintro ⟨_, r, h, rfl, hr⟩
    exact ⟨r, h, fun hm => by simpa using hr _ hm⟩
  · rintro ⟨r, h, hr⟩
    refine ⟨_, r, h, rfl, fun c hc => ?_⟩
    simp only [bne_iff_ne, ne_eq]
    rintro rfl
    exact hr hc

theorem validateNormalizedString_iff (s : String) :
    validateNormalizedString s = .ok () ↔ NoBreaks s := by
  rw [validateNormalizedString, require_ok]
  simp only [NoBreaks, Bool.not_eq_true', List.any_eq_false, isCrLfTab]
  constructor
  · intro h
    exact ⟨fun hm => by simpa using h _ hm, fun hm => by simpa using h _ hm,
      fun hm => by simpa using h _ hm⟩
  · rintro ⟨h1, h2, h3⟩ c hc
    have : c ≠ '\r' ∧ c ≠ '\n' ∧ c ≠ '\t' :=
      ⟨fun e => h1 (e ▸ hc), fun e => h2 (e ▸ hc), fun e => h3 (e ▸ hc)⟩
    simp [this]

theorem b64Val_alphabet : ∀ n, n < 64 →
    (base64Alphabet.toList[n]?).bind b64Val = some n := by decide

theorem alphabet_b64Val : ∀ m, m < 128 →
    (b64Val (Char.ofNat m)).all (fun n => base64Alphabet.toList[n]? = some (Char.ofNat m)) = true := by
  decide +kernel

theorem b64Val_iff (c : Char) (n : Nat) : b64Val c = some n ↔ Sextet n c := by
  constructor
  · intro h
    have hlt : c.toNat < 128 := by
      unfold b64Val at h
      simp only at h
      split at h
      · omega
      · split at h
        · omega
        · split at h
          · omega
          · split at h
            · subst_vars; decide
            · split at h
              · subst_vars; decide
              · simp at h
    have := alphabet_b64Val c.toNat hlt
    rw [show Char.ofNat c.toNat = c by simp, h] at this
    simpa [Sextet] using this
  · intro h
    have hlt : n < 64 := by
      have h1 := (List.getElem?_eq_some_iff.mp h).1
      have : base64Alphabet.toList.length = 64 := by decide
      omega
    have := b64Val_alphabet n hlt
    rw [show base64Alphabet.toList[n]? = some c from h] at this
    simpa using this

theorem sextet_lt {n : Nat} {c : Char} (h : Sextet n c) : n < 64 := by
  have h1 := (List.getElem?_eq_some_iff.mp h).1
  have : base64Alphabet.toList.length = 64 := by decide
  omega

theorem sextet_ne_pad {n : Nat} {c : Char} (h : Sextet n c) : c ≠ '=' := by
  rintro rfl
  have h1 := (b64Val_iff _ _).mpr h
  simp [b64Val] at h1

theorem toNat_ofNat_lt {n : Nat} (h : n < 256) : (UInt8.ofNat n).toNat = n := by
  simp [UInt8.toNat_ofNat', Nat.mod_eq_of_lt h]

theorem isBase64_of_decode (l : List Char) (bs : List UInt8) (h : b64Decode l = some bs) :
    IsBase64 bs l := by
  induction l using b64Decode.induct generalizing bs with
  | case1 => simp [b64Decode] at h; subst h; exact .nil
  | case2 a b =>
    unfold b64Decode at h
    simp only [Option.bind_eq_bind, Option.bind_eq_some_iff] at h
    obtain ⟨x, hx, y, hy, h⟩ := h
    rw [b64Val_iff] at hx hy
    have := sextet_lt hx
    have := sextet_lt hy
    split at h
    · simp only [Option.some.injEq] at h
      subst h
      exact .one hx hy (by rw [toNat_ofNat_lt (by omega)]; omega)
    · simp at h
  | case3 a b c hc =>
    unfold b64Decode at h
    simp only [Option.bind_eq_bind, Option.bind_eq_some_iff] at h
    obtain ⟨x, hx, y, hy, z, hz, h⟩ := h
    rw [b64Val_iff] at hx hy hz
    have := sextet_lt hx
    have := sextet_lt hy
    have := sextet_lt hz
    split at h
    · simp only [Option.some.injEq] at h
      subst h
      exact .two hx hy hz (by rw [toNat_ofNat_lt (by omega), toNat_ofNat_lt (by omega)]; omega)
    · simp at h
  | case4 a b c d l h1 h2 ih =>
    unfold b64Decode at h
    split at h <;> try (simp_all; done)
    rename_i heq
    simp only [List.cons.injEq] at heq
    obtain ⟨rfl, rfl, rfl, rfl, rfl⟩ := heq
    simp only [Option.bind_eq_bind, Option.bind_eq_some_iff] at h
    obtain ⟨x, hx, y, hy, z, hz, w, hw, rest, hr, h⟩ := h
    rw [b64Val_iff] at hx hy hz hw
    have := sextet_lt hx
    have := sextet_lt hy
    have := sextet_lt hz
    have := sextet_lt hw
    simp only [Option.some.injEq] at h
    subst h
    exact .three hx hy hz hw (by
      rw [toNat_ofNat_lt (by omega), toNat_ofNat_lt (by omega), toNat_ofNat_lt (by omega)]; omega)
      (ih _ hr)
  | case5 l h1 h2 h3 h4 =>
    unfold b64Decode at h
    split at h
    · exact absurd rfl h1
    · exact absurd rfl (h2 _ _)
    · exact absurd rfl (h3 _ _ _)
    · exact absurd rfl (h4 _ _ _ _ _)
    · simp at h

theorem decode_of_isBase64 {l : List Char} {bs : List UInt8} (h : IsBase64 bs l) :
    b64Decode l = some bs := by
  induction h with
  | nil => rfl
  | @one a w x cw cx hw hx e =>
    have ha := UInt8.toNat_lt a
    unfold b64Decode
    simp only
    rw [(b64Val_iff _ _).mpr hw, (b64Val_iff _ _).mpr hx]
    simp only [Option.bind_eq_bind, Option.bind_some]
    rw [if_pos (by omega), ofNat_toNat_eq (b := a) (by omega)]
  | @two a b w x y cw cx cy hw hx hy e =>
    have ha := UInt8.toNat_lt a
    have hb := UInt8.toNat_lt b
    have := sextet_lt hw
    have := sextet_lt hx
    have := sextet_lt hy
    have hne := sextet_ne_pad hy
    unfold b64Decode
    split
    · rename_i heq; simp at heq
    · rename_i heq; simp at heq; exact absurd heq.2.2 hne
    · rename_i heq
      simp only [List.cons.injEq, and_true] at heq
      obtain ⟨rfl, rfl, rfl⟩ := heq
      rw [(b64Val_iff _ _).mpr hw, (b64Val_iff _ _).mpr hx, (b64Val_iff _ _).mpr hy]
      simp only [Option.bind_eq_bind, Option.bind_some]
      rw [if_pos (by omega), ofNat_toNat_eq (b := a) (by omega), ofNat_toNat_eq (b := b) (by omega)]
    · rename_i h1 h2 heq; simp at heq; exact absurd heq.2.2.2.1.symm (by simp_all)
    · rename_i heq; simp_all
  | @three a b c w x y z cw cx cy cz bs cs hw hx hy hz e _ ih =>
    have ha := UInt8.toNat_lt a
    have hb := UInt8.toNat_lt b
    have hc := UInt8.toNat_lt c
    have := sextet_lt hw
    have := sextet_lt hx
    have := sextet_lt hy
    have := sextet_lt hz
    have hne := sextet_ne_pad hz
    unfold b64Decode
    split
    · rename_i heq; simp at heq
    · rename_i heq; simp at heq; exact absurd heq.2.2.2.1 hne
    · rename_i heq; simp at heq; exact absurd heq.2.2.2.1 hne
    · rename_i heq
      simp only [List.cons.injEq] at heq
      obtain ⟨rfl, rfl, rfl, rfl, rfl⟩ := heq
      rw [(b64Val_iff _ _).mpr hw, (b64Val_iff _ _).mpr hx, (b64Val_iff _ _).mpr hy,
        (b64Val_iff _ _).mpr hz, ih]
      simp only [Option.bind_eq_bind, Option.bind_some]
      rw [ofNat_toNat_eq (b := a) (by omega), ofNat_toNat_eq (b := b) (by omega),
        ofNat_toNat_eq (b := c) (by omega)]
    · rename_i heq; exact absurd rfl (heq _ _ _ _ _)

theorem b64Decode_iff (l : List Char) (bs : List UInt8) :
    b64Decode l = some bs ↔ IsBase64 bs l :=
  ⟨isBase64_of_decode l bs, decode_of_isBase64⟩

theorem confidence_iff (c : F32) : validateConfidence c = .ok () ↔ ¬ Negative c := by
  rw [validateConfidence, require_ok]
  have hc := c.isLt
  have key : (c.lt F32.zero && c.lt F32.one) = true ↔ Negative c := by
    have hone : F32.one.key = 0x3f800000 := by decide
    have hone' : F32.one.isNaN = false := by decide
    have hz : F32.zero.key = 0 := by decide
    have hz' : F32.zero.isNaN = false := by decide
    simp only [F32.lt, hone, hone', hz, hz', Bool.and_eq_true, Bool.not_eq_true', Bool.not_false,
      decide_eq_true_eq, and_true, Negative, f32Value]
    rw [show (c = 0xff800000 ↔ c.toNat = 0xff800000) from
      ⟨fun h => by rw [h]; decide, fun h => BitVec.eq_of_toNat_eq (by rw [h]; decide)⟩]
    unfold F32.isNaN F32.key
    generalize c.toNat = n at hc ⊢
    simp only [decide_eq_false_iff_not]
    constructor
    · rintro ⟨⟨h1, h2⟩, -, h3⟩
      split at h2
      · omega
      · by_cases he : n / 2 ^ 23 % 2 ^ 8 = 255
        · right; omega
        · left
          rw [if_neg he]
          refine ⟨_, rfl, ?_⟩
          rw [if_neg (by assumption)]
          have : 0 < (if n / 2 ^ 23 % 2 ^ 8 = 0 then n % 2 ^ 23
              else (2 ^ 23 + n % 2 ^ 23) * 2 ^ (n / 2 ^ 23 % 2 ^ 8 - 1)) := by
            split
            · omega
            · exact Nat.mul_pos (by omega) (Nat.pow_pos (by omega))
          omega
    · rintro (⟨x, hx, hneg⟩ | h)
      · split at hx
        · simp at hx
        · rename_i he
          simp only [Option.some.injEq] at hx
          split at hx
          · omega
          · rename_i hs
            have : 0 < (if n / 2 ^ 23 % 2 ^ 8 = 0 then n % 2 ^ 23
              else (2 ^ 23 + n % 2 ^ 23) * 2 ^ (n / 2 ^ 23 % 2 ^ 8 - 1)) := by omega
            have hpos : 0 < n - 2 ^ 31 := by
              split at this
              · omega
              · omega
            refine ⟨⟨by omega, ?_⟩, by omega, ?_⟩ <;> (rw [if_neg hs]; omega)
      · subst h; decide
  rw [← key]
  cases c.lt F32.zero <;> cases c.lt F32.one <;> simp

end Cdx
