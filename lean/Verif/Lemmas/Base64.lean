import Verif.Model.Strings

/-!
# Base64: decoding inverts encoding
-/

namespace Cdx

theorem b64Val_char : ∀ n, n < 64 → b64Val (b64Char n) = some n := by decide

theorem b64Char_ne_pad : ∀ n, n < 64 → b64Char n ≠ '=' := by decide

theorem ofNat_toNat_eq {b : UInt8} {n : Nat} (h : n = b.toNat) : UInt8.ofNat n = b := by
  subst h; simp

theorem b64_roundtrip (bs : List UInt8) : b64Decode (b64Encode bs) = some bs := by
  induction bs using b64Encode.induct with
  | case1 => rfl
  | case2 a =>
    have ha := UInt8.toNat_lt a
    unfold b64Encode
    simp only
    generalize hn : a.toNat * 16 = n
    unfold b64Decode
    simp only
    rw [b64Val_char _ (by omega), b64Val_char _ (by omega)]
    simp only [Option.bind_eq_bind, Option.bind_some]
    rw [if_pos (by omega)]
    congr 1
    rw [ofNat_toNat_eq (b := a) (by omega)]
  | case3 a b =>
    have ha := UInt8.toNat_lt a
    have hb := UInt8.toNat_lt b
    unfold b64Encode
    simp only
    generalize hn : (a.toNat * 256 + b.toNat) * 4 = n
    have hne := b64Char_ne_pad (n % 64) (by omega)
    unfold b64Decode
    split
    · rename_i heq; simp at heq
    · rename_i heq; simp at heq; exact absurd heq.2.2 hne
    · rename_i heq
      simp only [List.cons.injEq, and_true] at heq
      obtain ⟨rfl, rfl, rfl⟩ := heq
      rw [b64Val_char _ (by omega), b64Val_char _ (by omega), b64Val_char _ (by omega)]
      simp only [Option.bind_eq_bind, Option.bind_some]
      rw [if_pos (by omega)]
      rw [ofNat_toNat_eq (b := a) (by omega), ofNat_toNat_eq (b := b) (by omega)]
    · rename_i h1 h2 heq; simp at heq; exact absurd heq.2.2.2.1.symm (by simp_all)
    · rename_i heq; simp_all
  | case4 a b c l ih =>
    have ha := UInt8.toNat_lt a
    have hb := UInt8.toNat_lt b
    have hc := UInt8.toNat_lt c
    unfold b64Encode
    simp only
    generalize hn : a.toNat * 65536 + b.toNat * 256 + c.toNat = n
    have hne := b64Char_ne_pad (n % 64) (by omega)
    unfold b64Decode
    split
    · rename_i heq; simp at heq
    · rename_i heq; simp at heq; exact absurd heq.2.2.2.1 hne
    · rename_i heq; simp at heq; exact absurd heq.2.2.2.1 hne
    · rename_i heq
      simp only [List.cons.injEq] at heq
      obtain ⟨rfl, rfl, rfl, rfl, rfl⟩ := heq
      rw [b64Val_char _ (by omega), b64Val_char _ (by omega), b64Val_char _ (by omega),
        b64Val_char _ (by omega), ih]
      simp only [Option.bind_eq_bind, Option.bind_some]
      rw [ofNat_toNat_eq (b := a) (by omega), ofNat_toNat_eq (b := b) (by omega),
        ofNat_toNat_eq (b := c) (by omega)]
    · rename_i heq; exact absurd rfl (heq _ _ _ _ _)

end Cdx
