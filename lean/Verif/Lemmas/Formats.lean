import Verif.Lemmas.Checks
import Verif.Spec.Formats

/-!
# Lemmas about normalized strings, numbers and CPE names
-/

namespace Cdx

open Cdx.Spec

set_option linter.unusedSimpArgs false

/-! ## Normalized strings -/

theorem replace_normalizes (l : List Char) : Normalizes l (replaceCrLfTab (replaceCrLf l)) := by
  fun_induction replaceCrLf l with
  | case1 => exact .nil
  | case2 c =>
    simp only [replaceCrLfTab, List.map_cons, List.map_nil]
    by_cases h1 : c = '\r'
    · subst h1; exact .cr (by simp) .nil
    by_cases h2 : c = '\n'
    · subst h2; exact .lf .nil
    by_cases h3 : c = '\t'
    · subst h3; exact .tab .nil
    simp only [isCrLfTab, h1, h2, h3, beq_iff_eq, Bool.or_eq_true, or_self, ↓reduceIte]
    exact .other h1 h2 h3 .nil
  | case3 c d l h ih =>
    obtain ⟨rfl, rfl⟩ := h
    exact .crlf ih
  | case4 c d l h ih =>
    simp only [replaceCrLfTab, List.map_cons]
    by_cases h1 : c = '\r'
    · subst h1
      exact .cr (by simpa using h) ih
    by_cases h2 : c = '\n'
    · subst h2; exact .lf ih
    by_cases h3 : c = '\t'
    · subst h3; exact .tab ih
    have : isCrLfTab c = false := by simp [isCrLfTab, h1, h2, h3]
    rw [if_neg (by simp [this])]
    exact .other h1 h2 h3 ih

theorem Normalizes.unique {l m m' : List Char} (h : Normalizes l m) (h' : Normalizes l m') :
    m = m' := by
  induction h generalizing m' with
  | nil => cases h'; rfl
  | crlf _ ih =>
    cases h' with
    | crlf h => rw [ih h]
    | cr h => exact absurd rfl h
    | other h => exact absurd rfl h
  | cr h1 _ ih =>
    cases h' with
    | crlf h => exact absurd rfl h1
    | cr _ h => rw [ih h]
    | other h => exact absurd rfl h
  | lf _ ih =>
    cases h' with
    | lf h => rw [ih h]
    | other _ h => exact absurd rfl h
  | tab _ ih =>
    cases h' with
    | tab h => rw [ih h]
    | other _ _ h => exact absurd rfl h
  | other h1 h2 h3 _ ih =>
    cases h' with
    | crlf => exact absurd rfl h1
    | cr => exact absurd rfl h1
    | lf => exact absurd rfl h2
    | tab => exact absurd rfl h3
    | other _ _ _ h => rw [ih h]

theorem Normalizes.clean {l m : List Char} (h : Normalizes l m) :
    '\r' ∉ m ∧ '\n' ∉ m ∧ '\t' ∉ m := by
  induction h with
  | nil => simp
  | crlf _ ih => simpa using ih
  | cr _ _ ih => simpa using ih
  | lf _ ih => simpa using ih
  | tab _ ih => simpa using ih
  | other h1 h2 h3 _ ih =>
    simp only [List.mem_cons, not_or]
    exact ⟨⟨fun e => h1 e.symm, ih.1⟩, ⟨fun e => h2 e.symm, ih.2.1⟩, ⟨fun e => h3 e.symm, ih.2.2⟩⟩

theorem Normalizes.refl {l : List Char} (h : '\r' ∉ l ∧ '\n' ∉ l ∧ '\t' ∉ l) : Normalizes l l := by
  induction l with
  | nil => exact .nil
  | cons c l ih =>
    simp only [List.mem_cons, not_or] at h
    exact .other (Ne.symm h.1.1) (Ne.symm h.2.1.1) (Ne.symm h.2.2.1)
      (ih ⟨h.1.2, h.2.1.2, h.2.2.2⟩)

/-! ## Numbers -/

theorem digitVal_iff (c : Char) (d : Nat) : digitVal c = some d ↔ Digit c ∧ d = digitValue c := by
  have h0 : (('0' ≤ c ∧ c ≤ '9') ↔ Digit c) := by
    rw [← isDigit_iff, isDigitC, Bool.and_eq_true, decide_eq_true_iff, decide_eq_true_iff]
    exact Iff.rfl
  unfold digitVal
  by_cases h : Digit c
  · rw [if_pos (h0.mpr h)]
    simp [h, digitValue, eq_comm]
  · rw [if_neg (fun e => h (h0.mp e))]
    simp [h]

theorem zipIdx_sum (l : List Char) (k n : Nat) (hn : k + l.length ≤ n) :
    ((l.zipIdx k).map fun p => digitValue p.1 * 10 ^ (n - 1 - p.2)).sum =
      decimalValue l * 10 ^ (n - k - l.length) := by
  induction l generalizing k n with
  | nil => simp [decimalValue]
  | cons c l ih =>
    simp only [List.length_cons] at hn
    have h1 := ih (k + 1) n (by omega)
    have h2 := ih 1 (l.length + 1) (by omega)
    simp only [List.zipIdx_cons, List.map_cons, List.sum_cons, decimalValue, List.length_cons]
    rw [h1]
    have h3 : l.length + 1 - 1 - l.length = 0 := by omega
    simp only [Nat.zero_add] at h2 ⊢
    rw [h2, h3]
    simp only [Nat.pow_zero, Nat.mul_one, Nat.add_mul, Nat.mul_assoc, ← Nat.pow_add]
    congr 2
    · congr 2; omega
    · congr 1; omega

theorem decimalValue_cons (c : Char) (l : List Char) :
    decimalValue (c :: l) = digitValue c * 10 ^ l.length + decimalValue l := by
  have h2 := zipIdx_sum l 1 (l.length + 1) (by omega)
  simp only [decimalValue, List.zipIdx_cons, List.map_cons, List.sum_cons, List.length_cons,
    Nat.zero_add]
  rw [h2]
  have h3 : l.length + 1 - 1 - l.length = 0 := by omega
  rw [h3]
  simp [decimalValue]

theorem digitsVal_iff (acc : Nat) (l : List Char) (n : Nat) : digitsVal acc l = some n ↔
    (∀ c ∈ l, Digit c) ∧ n = acc * 10 ^ l.length + decimalValue l := by
  induction l generalizing acc with
  | nil => simp [digitsVal, decimalValue, eq_comm]
  | cons c l ih =>
    unfold digitsVal
    cases hd : digitVal c with
    | none =>
      have : ¬ Digit c := by
        intro h
        rw [(digitVal_iff c _).mpr ⟨h, rfl⟩] at hd
        cases hd
      simp [this]
    | some d =>
      obtain ⟨h1, rfl⟩ := (digitVal_iff c d).mp hd
      simp only [ih, List.mem_cons, forall_eq_or_imp, h1, true_and, decimalValue_cons,
        List.length_cons]
      have : (10 * acc + digitValue c) * 10 ^ l.length + decimalValue l =
          acc * 10 ^ (l.length + 1) + (digitValue c * 10 ^ l.length + decimalValue l) := by
        rw [Nat.add_mul, Nat.pow_succ]
        have : 10 * acc * 10 ^ l.length = acc * (10 ^ l.length * 10) := by
          rw [Nat.mul_comm 10 acc, Nat.mul_assoc, Nat.mul_comm 10]
        omega
      rw [this]

theorem not_digit_minus : ¬ Digit '-' := by unfold Digit; decide
theorem not_digit_plus : ¬ Digit '+' := by unfold Digit; decide

theorem digits_iff (l : List Char) (n : Nat) : digitsVal 0 l = some n ↔
    (∀ c ∈ l, Digit c) ∧ n = decimalValue l := by simp [digitsVal_iff]

theorem inRange_iff (i j : Int) :
    (if -(2 ^ 63) ≤ i ∧ i < 2 ^ 63 then some i else none) = some j ↔
      i = j ∧ -(2 ^ 63) ≤ j ∧ j < 2 ^ 63 := by
  split
  · rename_i h
    constructor
    · intro e; cases e; exact ⟨rfl, h⟩
    · rintro ⟨rfl, _⟩; rfl
  · rename_i h
    constructor
    · intro e; cases e
    · rintro ⟨rfl, h'⟩; exact absurd h' h

theorem signed_cons (c : Char) (l : List Char) (i : Int) : SignedDecimal (c :: l) i ↔
    (c = '-' ∧ l ≠ [] ∧ (∀ c ∈ l, Digit c) ∧ i = -(decimalValue l : Int)) ∨
    (c = '+' ∧ l ≠ [] ∧ (∀ c ∈ l, Digit c) ∧ i = decimalValue l) ∨
    ((∀ x ∈ c :: l, Digit x) ∧ i = decimalValue (c :: l)) := by
  constructor
  · rintro ⟨sign, digits, h, hn, hd, (⟨rfl | rfl, rfl⟩ | ⟨rfl, rfl⟩)⟩
    · simp only [List.nil_append] at h
      subst h
      exact .inr (.inr ⟨hd, rfl⟩)
    · simp only [List.cons_append, List.nil_append, List.cons.injEq] at h
      obtain ⟨rfl, rfl⟩ := h
      exact .inr (.inl ⟨rfl, hn, hd, rfl⟩)
    · simp only [List.cons_append, List.nil_append, List.cons.injEq] at h
      obtain ⟨rfl, rfl⟩ := h
      exact .inl ⟨rfl, hn, hd, rfl⟩
  · rintro (⟨rfl, hn, hd, rfl⟩ | ⟨rfl, hn, hd, rfl⟩ | ⟨hd, rfl⟩)
    · exact ⟨['-'], l, rfl, hn, hd, .inr ⟨rfl, rfl⟩⟩
    · exact ⟨['+'], l, rfl, hn, hd, .inl ⟨.inr rfl, rfl⟩⟩
    · exact ⟨[], c :: l, rfl, by simp, hd, .inl ⟨.inl rfl, rfl⟩⟩

theorem parseI64_iff (s : String) (i : Int) : parseI64 s = some i ↔
    SignedDecimal s.toList i ∧ -(2 ^ 63) ≤ i ∧ i < 2 ^ 63 := by
  unfold parseI64
  generalize s.toList = l
  have key (l : List Char) (f : Nat → Int) :
      (((digitsVal 0 l).bind fun n =>
        (if -(2 ^ 63) ≤ f n ∧ f n < 2 ^ 63 then some (f n) else none)) = some i) ↔
      ((∀ c ∈ l, Digit c) ∧ i = f (decimalValue l)) ∧ -(2 ^ 63) ≤ i ∧ i < 2 ^ 63 := by
    rw [Option.bind_eq_some_iff]
    constructor
    · rintro ⟨n, h1, h2⟩
      obtain ⟨hd, rfl⟩ := (digits_iff l n).mp h1
      obtain ⟨h3, h4⟩ := (inRange_iff _ _).mp h2
      exact ⟨⟨hd, h3.symm⟩, h4⟩
    · rintro ⟨⟨hd, h3⟩, h4⟩
      exact ⟨decimalValue l, (digits_iff l _).mpr ⟨hd, rfl⟩, (inRange_iff _ _).mpr ⟨h3.symm, h4⟩⟩
  have hmd := not_digit_minus
  have hpd := not_digit_plus
  have one (c : Char) : decimalValue [c] = digitValue c := by simp [decimalValue_cons, decimalValue]
  match l with
  | [] =>
    simp only [reduceCtorEq, false_iff, not_and]
    rintro ⟨sign, digits, h, hn, _⟩
    simp_all
  | '-' :: [] => simp [signed_cons, hmd]
  | '+' :: [] => simp [signed_cons, hpd]
  | '-' :: c :: l =>
    simp only [signed_cons]
    rw [key (c :: l) (fun n => -(n : Int))]
    simp [hmd]
  | '+' :: c :: l =>
    simp only [signed_cons]
    rw [key (c :: l) (fun n => (n : Int))]
    simp [hpd]
  | c :: l =>
    by_cases h1 : c = '-'
    · subst h1
      cases l with
      | nil => simp [signed_cons, hmd]
      | cons d l =>
        simp only [signed_cons]
        rw [key (d :: l) (fun n => -(n : Int))]
        simp [hmd]
    by_cases h2 : c = '+'
    · subst h2
      cases l with
      | nil => simp [signed_cons, hpd]
      | cons d l =>
        simp only [signed_cons]
        rw [key (d :: l) (fun n => (n : Int))]
        simp [hpd]
    · rw [signed_cons]
      split
      · rename_i h; cases h
      · rename_i h; cases h; exact absurd rfl h1
      · rename_i h; cases h; exact absurd rfl h2
      · rename_i h; cases h; exact absurd rfl h1
      · rename_i h; cases h; exact absurd rfl h2
      · rw [key (c :: l) (fun n => (n : Int))]
        simp [h1, h2]

/-! ## UUIDs -/

theorem hexDigit_lower : ∀ n, n < 16 → LowerHex (hexDigit n) := by
  unfold LowerHex; decide

theorem hexBytes_exactly (bs : List UInt8) : Exactly (2 * bs.length) LowerHex (hexBytes bs) := by
  induction bs with
  | nil => exact ⟨rfl, by simp [hexBytes]⟩
  | cons b bs ih =>
    have hb := UInt8.toNat_lt b
    refine ⟨?_, ?_⟩
    · have := ih.1
      simp only [hexBytes, List.flatMap_cons, List.length_append, List.length_cons,
        List.length_nil] at this ⊢
      omega
    · intro c hc
      simp only [hexBytes, List.flatMap_cons, List.mem_append, List.mem_cons, List.not_mem_nil,
        or_false] at hc
      rcases hc with (rfl | rfl) | hc
      · exact hexDigit_lower _ (by omega)
      · exact hexDigit_lower _ (by omega)
      · exact ih.2 c hc

theorem uuidDisplay_isUuid (bs : Vector UInt8 16) : IsUuid (uuidDisplay bs) := by
  have hl : bs.toList.length = 16 := by simp
  have h (i n : Nat) (h : i + n ≤ 16) :
      Exactly (2 * n) LowerHex (hexBytes ((bs.toList.drop i).take (i + n - i))) := by
    have := hexBytes_exactly ((bs.toList.drop i).take (i + n - i))
    simpa [hl, show min n (16 - i) = n by omega] using this
  exact ⟨_, _, _, _, _, h 0 4 (by omega), h 4 2 (by omega), h 6 2 (by omega), h 8 2 (by omega),
    h 10 6 (by omega), by simp [uuidDisplay]⟩

theorem hexDigit_inj : ∀ n, n < 16 → ∀ m, m < 16 → hexDigit n = hexDigit m → n = m := by decide

theorem hexBytes_inj {a b : List UInt8} (h : hexBytes a = hexBytes b) : a = b := by
  induction a generalizing b with
  | nil =>
    cases b with
    | nil => rfl
    | cons y b => simp [hexBytes] at h
  | cons x a ih =>
    cases b with
    | nil => simp [hexBytes] at h
    | cons y b =>
      have hx := UInt8.toNat_lt x
      have hy := UInt8.toNat_lt y
      simp only [hexBytes, List.flatMap_cons, List.cons_append, List.nil_append,
        List.cons.injEq] at h
      obtain ⟨h1, h2, h3⟩ := h
      have h1 := hexDigit_inj _ (by omega) _ (by omega) h1
      have h2 := hexDigit_inj _ (by omega) _ (by omega) h2
      have : x = y := UInt8.toNat_inj.mp (by omega)
      rw [this, ih h3]

theorem urnUuidGenerate_injective (a b : Vector UInt8 16)
    (h : urnUuidGenerate a = urnUuidGenerate b) : a = b := by
  unfold urnUuidGenerate at h
  have h := String.ofList_injective h
  have h := List.append_cancel_left h
  have hla : a.toList.length = 16 := by simp
  have hlb : b.toList.length = 16 := by simp
  have e (v : Vector UInt8 16) (i j : Nat) (hij : i ≤ j) (hj : j ≤ 16) :
      (hexBytes ((v.toList.drop i).take (j - i))).length = 2 * (j - i) := by
    rw [(hexBytes_exactly _).1]
    have : v.toList.length = 16 := by simp
    simp only [List.length_take, List.length_drop, this]
    omega
  unfold uuidDisplay at h
  simp only [List.append_assoc, List.cons_append] at h
  obtain ⟨h1, h⟩ := List.append_inj h (by rw [e, e] <;> omega)
  simp only [List.cons.injEq, true_and] at h
  obtain ⟨h2, h⟩ := List.append_inj h (by rw [e, e] <;> omega)
  simp only [List.cons.injEq, true_and] at h
  obtain ⟨h3, h⟩ := List.append_inj h (by rw [e, e] <;> omega)
  simp only [List.cons.injEq, true_and] at h
  obtain ⟨h4, h⟩ := List.append_inj h (by rw [e, e] <;> omega)
  simp only [List.cons.injEq, true_and] at h
  have g (v : Vector UInt8 16) : v.toList =
      (v.toList.drop 0).take 4 ++ ((v.toList.drop 4).take 2 ++ ((v.toList.drop 6).take 2 ++
        ((v.toList.drop 8).take 2 ++ (v.toList.drop 10).take 6))) := by
    have hl : v.toList.length = 16 := by simp
    generalize v.toList = l at hl ⊢
    have t (i n : Nat) : l.drop i = (l.drop i).take n ++ l.drop (i + n) := by
      rw [← List.drop_drop]; exact (List.take_append_drop n _).symm
    conv => lhs; rw [show l = l.drop 0 from rfl, t 0 4, t (0 + 4) 2, t (0 + 4 + 2) 2,
      t (0 + 4 + 2 + 2) 2]
    rw [List.take_of_length_le (i := 6) (by simp [hl])]
  have : a.toList = b.toList := by
    rw [g a, g b, hexBytes_inj h1, hexBytes_inj h2, hexBytes_inj h3, hexBytes_inj h4,
      hexBytes_inj h]
  exact Vector.toList_inj.mp this

/-! ## CPE names -/

theorem isAlpha_iff (c : Char) : isAlphaC c = true ↔ Letter c := by
  have := char_iff (p := isAlphaC)
    (q := fun c => decide (c ∈ "abcdefghijklmnopqrstuvwxyzABCDEFGHIJKLMNOPQRSTUVWXYZ".toList))
    (by intro c h; simp [isAlphaC, isLowerC, isUpperC] at h; omega)
    (ascii_of_mem (by decide)) (by decide) c
  rw [this]; simp [Letter]

theorem lang_oneOf (s : String) (l : List Char) :
    (Re.oneOf s).Lang l ↔ ∃ c, l = [c] ∧ c ∈ s.toList := by
  simp [Re.oneOf, Re.Lang]

theorem lang_rep (r : Re) (n : Nat) (l : List Char) : (Re.rep n r).Lang l ↔
    ∃ ls : List (List Char), ls.length = n ∧ (∀ x ∈ ls, r.Lang x) ∧ l = ls.flatten := by
  induction n generalizing l with
  | zero =>
    simp only [Re.rep, Re.Lang]
    constructor
    · rintro rfl; exact ⟨[], rfl, by simp, rfl⟩
    · rintro ⟨ls, h, _, rfl⟩
      rw [List.length_eq_zero_iff] at h
      subst h; rfl
  | succ n ih =>
    simp only [Re.rep, Re.Lang, ih]
    constructor
    · rintro ⟨x, y, rfl, hx, ls, rfl, hl, rfl⟩
      exact ⟨x :: ls, rfl, by simpa using ⟨hx, hl⟩, by simp⟩
    · rintro ⟨ls, hn, hl, rfl⟩
      cases ls with
      | nil => cases hn
      | cons x ls =>
        exact ⟨x, ls.flatten, by simp, hl x (by simp), ls, by simpa using hn,
          fun y hy => hl y (by simp [hy]), rfl⟩

theorem lang_plus (r : Re) (l : List Char) : (Re.plus r).Lang l ↔
    ∃ ls : List (List Char), ls ≠ [] ∧ (∀ x ∈ ls, r.Lang x) ∧ l = ls.flatten := by
  simp only [Re.plus, Re.Lang]
  constructor
  · rintro ⟨x, y, rfl, hx, ls, rfl, hl⟩
    exact ⟨x :: ls, by simp, by simpa using ⟨hx, hl⟩, by simp⟩
  · rintro ⟨ls, hn, hl, rfl⟩
    cases ls with
    | nil => exact absurd rfl hn
    | cons x ls =>
      exact ⟨x, ls.flatten, by simp, hl x (by simp), ls, rfl, fun y hy => hl y (by simp [hy])⟩

theorem lang_seq (r r' : Re) (l : List Char) :
    (Re.seq r r').Lang l ↔ ∃ x y, l = x ++ y ∧ r.Lang x ∧ r'.Lang y := by simp [Re.Lang]

theorem lang_alt (r r' : Re) (l : List Char) :
    (Re.alt r r').Lang l ↔ r.Lang l ∨ r'.Lang l := by simp [Re.Lang]

theorem lang_wild (l : List Char) :
    (Re.alt (.star (.chr '?')) (.opt (.chr '*'))).Lang l ↔ CpeWild l := by
  have h : (Re.star (.chr '?')).Lang l ↔ ∀ c ∈ l, c = '?' := by
    rw [Re.chr, Re.lang_star_cls]; simp
  rw [lang_alt, h, Re.lang_opt, Re.lang_chr, CpeWild]
  constructor
  · rintro (h | rfl | rfl)
    · exact .inl h
    · exact .inr rfl
    · exact .inl (by simp)
  · rintro (h | rfl)
    · exact .inl h
    · exact .inr (.inl rfl)

theorem lang_two (s : String) (a b : Char) (h : s.toList = [a, b]) (l : List Char) :
    (Re.oneOf s).Lang l ↔ l = [a] ∨ l = [b] := by
  rw [lang_oneOf, h]
  constructor
  · rintro ⟨c, rfl, hc⟩
    simp only [List.mem_cons, List.not_mem_nil, or_false] at hc
    rcases hc with rfl | rfl <;> simp
  · rintro (rfl | rfl)
    · exact ⟨a, rfl, by simp⟩
    · exact ⟨b, rfl, by simp⟩

theorem lang_attr (l : List Char) : reCpeAttr.Lang l ↔ ∃ x, CpeAttribute x ∧ l = ':' :: x := by
  have hc (x : List Char) : (Re.alt
      (.cls fun c => isAlphaC c || isDigitC c || c == '-' || c == '.' || c == '_')
      (.seq (.chr '\\') (.oneOf "\\*?!\"#$%&'()+,/:;<=>@[]^`{|}~"))).Lang x ↔ CpeChar x := by
    rw [lang_alt, lang_seq, CpeChar]
    simp only [Re.lang_chr, lang_oneOf]
    have h1 : (Re.cls fun c => isAlphaC c || isDigitC c || c == '-' || c == '.' || c == '_').Lang x
        ↔ ∃ c, x = [c] ∧ (Letter c ∨ Digit c ∨ c ∈ "-._".toList) := by
      simp only [Re.Lang, ← isAlpha_iff, ← isDigit_iff, Bool.or_eq_true, beq_iff_eq]
      constructor
      · rintro ⟨c, rfl, h⟩; exact ⟨c, rfl, by simpa [or_assoc] using h⟩
      · rintro ⟨c, rfl, h⟩; exact ⟨c, rfl, by simpa [or_assoc] using h⟩
    rw [h1]
    constructor
    · rintro (h | ⟨_, _, rfl, rfl, c, rfl, h⟩)
      · exact .inl h
      · exact .inr ⟨c, rfl, h⟩
    · rintro (h | ⟨c, rfl, h⟩)
      · exact .inl h
      · exact .inr ⟨['\\'], [c], rfl, rfl, c, rfl, h⟩
  simp only [reCpeAttr, lang_seq, Re.lang_chr, lang_alt, Re.lang_cat_cons, Re.lang_cat_one]
  have hw := lang_wild
  simp only [lang_alt] at hw
  simp only [hw]
  have hp (y : List Char) : (Re.plus (Re.alt
      (.cls fun c => isAlphaC c || isDigitC c || c == '-' || c == '.' || c == '_')
      (.seq (.chr '\\') (.oneOf "\\*?!\"#$%&'()+,/:;<=>@[]^`{|}~")))).Lang y ↔
      ∃ ls : List (List Char), ls ≠ [] ∧ (∀ x ∈ ls, CpeChar x) ∧ y = ls.flatten := by
    rw [lang_plus]
    simp only [hc]
  simp only [hp, lang_two "*-" '*' '-' rfl, CpeAttribute]
  constructor
  · rintro ⟨_, x, rfl, rfl, (⟨w, _, rfl, hw, _, w', rfl, ⟨cs, hn, hcs, rfl⟩, hw'⟩ | h)⟩
    · exact ⟨_, .inr (.inr ⟨w, cs, w', hw, hw', hn, hcs, rfl⟩), by simp⟩
    · exact ⟨x, by rcases h with rfl | rfl <;> simp, rfl⟩
  · rintro ⟨x, (h | h | ⟨w, cs, w', hw, hw', hn, hcs, rfl⟩), rfl⟩
    · exact ⟨[':'], x, rfl, rfl, .inr (.inl h)⟩
    · exact ⟨[':'], x, rfl, rfl, .inr (.inr h)⟩
    · exact ⟨[':'], _, rfl, rfl, .inl ⟨w, cs.flatten ++ w', by simp, hw, _, w', rfl,
        ⟨cs, hn, hcs, rfl⟩, hw'⟩⟩

theorem lang_rep_alpha (n : Nat) (l : List Char) :
    (Re.rep n (.cls isAlphaC)).Lang l ↔ Exactly n Letter l := by
  rw [Re.lang_rep_cls]; simp only [isAlpha_iff, Exactly]

theorem lang_rep_digit (n : Nat) (l : List Char) :
    (Re.rep n (.cls isDigitC)).Lang l ↔ Exactly n Digit l := by
  rw [Re.lang_rep_cls]; simp only [isDigit_iff, Exactly]

theorem lang_lang (l : List Char) : reCpeLang.Lang l ↔ ∃ x, CpeLanguage x ∧ l = ':' :: x := by
  simp only [reCpeLang, lang_seq, Re.lang_chr, lang_alt, Re.lang_opt, lang_rep_alpha,
    lang_rep_digit, lang_two "*-" '*' '-' rfl, CpeLanguage]
  constructor
  · rintro ⟨_, x, rfl, rfl, (⟨a, r, rfl, ha, (⟨_, b, rfl, rfl, hb⟩ | rfl)⟩ | h)⟩
    · exact ⟨_, .inr (.inr ⟨a, '-' :: b, ha, .inr ⟨b, rfl, hb⟩, rfl⟩), rfl⟩
    · exact ⟨_, .inr (.inr ⟨a, [], ha, .inl rfl, rfl⟩), rfl⟩
    · exact ⟨x, by rcases h with rfl | rfl <;> simp, rfl⟩
  · rintro ⟨x, (h | h | ⟨a, r, ha, (rfl | ⟨b, rfl, hb⟩), rfl⟩), rfl⟩
    · exact ⟨[':'], x, rfl, rfl, .inr (.inl h)⟩
    · exact ⟨[':'], x, rfl, rfl, .inr (.inr h)⟩
    · exact ⟨[':'], _, rfl, rfl, .inl ⟨a, [], rfl, ha, .inr rfl⟩⟩
    · exact ⟨[':'], _, rfl, rfl, .inl ⟨a, _, rfl, ha, .inl ⟨['-'], b, rfl, rfl, hb⟩⟩⟩

theorem lang_attrs (n : Nat) (l : List Char) : (Re.rep n reCpeAttr).Lang l ↔
    ∃ as : List (List Char), as.length = n ∧ (∀ x ∈ as, CpeAttribute x) ∧
      l = as.flatMap (':' :: ·) := by
  rw [lang_rep]
  simp only [lang_attr]
  constructor
  · rintro ⟨ls, hn, hl, rfl⟩
    refine ⟨ls.map List.tail, by simpa using hn, ?_, ?_⟩
    · intro x hx
      obtain ⟨y, hy, rfl⟩ := List.mem_map.mp hx
      obtain ⟨z, hz, rfl⟩ := hl y hy
      exact hz
    · rw [List.flatMap_map, List.flatMap]
      congr 1
      conv => lhs; rw [← List.map_id ls]
      apply List.map_congr_left
      intro y hy
      obtain ⟨z, hz, rfl⟩ := hl y hy
      rfl
  · rintro ⟨as, hn, ha, rfl⟩
    refine ⟨as.map (':' :: ·), by simpa using hn, ?_, rfl⟩
    intro x hx
    obtain ⟨y, hy, rfl⟩ := List.mem_map.mp hx
    exact ⟨y, ha y hy, rfl⟩

theorem lang_cpe23 (l : List Char) : reCpe23.Lang l ↔ IsCpe23 l := by
  simp only [reCpe23, Re.lang_cat_cons, Re.lang_cat_one, Re.lang_lit, lang_oneOf, lang_attrs,
    lang_lang, IsCpe23]
  constructor
  · rintro ⟨_, _, rfl, rfl, _, _, rfl, ⟨p, rfl, hp⟩, _, _, rfl, ⟨before, hb, hb', rfl⟩, _, _, rfl,
      ⟨lang, hl, rfl⟩, after, ha, ha', rfl⟩
    exact ⟨p, before, lang, after, hp, hb, hb', hl, ha, ha', by simp⟩
  · rintro ⟨p, before, lang, after, hp, hb, hb', hl, ha, ha', rfl⟩
    exact ⟨_, _, rfl, rfl, [p], _, rfl, ⟨p, rfl, hp⟩, _, _, (by simp), ⟨before, hb, hb', rfl⟩, _,
      _, rfl, ⟨lang, hl, rfl⟩, after, ha, ha', rfl⟩

theorem lang_upTo_nil (n : Nat) (r : Re) : (Re.upTo n r).Lang [] := by
  induction n with
  | zero => simp [Re.upTo, Re.Lang]
  | succ n ih => simp [Re.upTo, Re.opt, Re.Lang]

theorem cpe22_start (l : List Char) (h : Cpe22Start l) : reCpe22.Lang l := by
  obtain ⟨p, e, hp, he, rfl⟩ := h
  simp only [reCpe22, Re.lang_cat_cons, Re.lang_cat_one, Re.lang_lit, Re.lang_opt]
  exact ⟨['c'], _, rfl, (lang_oneOf _ _).mpr ⟨_, rfl, by decide⟩, [p], _, rfl,
    (lang_oneOf _ _).mpr ⟨_, rfl, hp⟩, [e], _, rfl, (lang_oneOf _ _).mpr ⟨_, rfl, he⟩,
    [':', '/'], [], rfl, rfl, [], [], rfl, .inr rfl, lang_upTo_nil _ _⟩

theorem cpe22_starts (l : List Char) (h : reCpe22.Lang l) :
    ∃ a b, Cpe22Start a ∧ l = a ++ b := by
  simp only [reCpe22, Re.lang_cat_cons, Re.lang_cat_one, Re.lang_lit, lang_oneOf] at h
  obtain ⟨_, _, rfl, ⟨c, rfl, hc⟩, _, _, rfl, ⟨p, rfl, hp⟩, _, _, rfl, ⟨e, rfl, he⟩, _, r, rfl,
    rfl, _⟩ := h
  have hc : c = 'c' := by simpa using hc
  subst hc
  exact ⟨['c', p, e, ':', '/'], r, ⟨p, e, hp, he, rfl⟩, rfl⟩

theorem patCpe_iff (s : String) : patCpe.isMatch s = true ↔
    Contains s.toList Cpe22Start ∨ Contains s.toList IsCpe23 := by
  rw [patCpe, Pattern.isMatch_iff]
  simp only [List.mem_cons, List.not_mem_nil, or_false, Contains]
  constructor
  · rintro ⟨b, rfl | rfl, pre, mid, post, h, hm, _, _⟩
    · obtain ⟨a, r, ha, rfl⟩ := cpe22_starts mid hm
      exact .inl ⟨pre, a, r ++ post, ha, by simpa using h⟩
    · exact .inr ⟨pre, mid, post, (lang_cpe23 _).mp hm, h⟩
  · rintro (⟨pre, mid, post, hm, h⟩ | ⟨pre, mid, post, hm, h⟩)
    · exact ⟨_, .inl rfl, pre, mid, post, h, cpe22_start mid hm, by simp, by simp⟩
    · exact ⟨_, .inr rfl, pre, mid, post, h, (lang_cpe23 _).mpr hm, by simp, by simp⟩

end Cdx
