/-
UTF-8 encoding and decoding: helper lemmas for C10 and for the lexer proofs.
-/
import Verif.Model.Utf8

namespace GQL

theorem or_C0 (x : Nat) (h : x < 32) : 0xC0 ||| x = 0xC0 + x := by
  revert x; decide
theorem or_80 (x : Nat) (h : x < 64) : 0x80 ||| x = 0x80 + x := by
  revert x; decide
theorem or_E0 (x : Nat) (h : x < 16) : 0xE0 ||| x = 0xE0 + x := by
  revert x; decide
theorem or_F0 (x : Nat) (h : x < 8) : 0xF0 ||| x = 0xF0 + x := by
  revert x; decide
theorem and_3F (x : Nat) : (x % 256) &&& 0x3F = x % 64 := by
  have := Nat.and_two_pow_sub_one_eq_mod (x % 256) 6
  simp only [Nat.reducePow, Nat.reduceSub] at this
  rw [this]; omega

/-- `encodeRune` without bit operations. -/
theorem encodeRune_eq (r : Nat) (h : r.isValidChar) : encodeRune r =
    if r < 0x80 then [r]
    else if r < 0x800 then [0xC0 + r / 64, 0x80 + r % 64]
    else if r < 0x10000 then [0xE0 + r / 4096, 0x80 + r / 64 % 64, 0x80 + r % 64]
    else [0xF0 + r / 262144, 0x80 + r / 4096 % 64, 0x80 + r / 64 % 64, 0x80 + r % 64] := by
  have hr : r < 0x110000 ∧ ¬ (0xD800 ≤ r ∧ r ≤ 0xDFFF) := by
    unfold Nat.isValidChar at h; omega
  unfold encodeRune
  simp only [and_3F, Nat.shiftRight_eq_div_pow]
  simp only [Nat.reducePow]
  have hb : (decide (r > 1114111) || (decide (55296 ≤ r) && decide (r ≤ 57343))) = false := by
    simp; omega
  rw [hb]
  simp only [Bool.false_or, decide_eq_true_eq, Bool.false_eq_true, if_false]
  by_cases h1 : r < 0x80
  · rw [if_pos (show r ≤ 127 by omega), if_pos h1, Nat.mod_eq_of_lt (by omega)]
  rw [if_neg (show ¬ r ≤ 127 by omega), if_neg h1]
  by_cases h2 : r < 0x800
  · rw [if_pos (show r ≤ 2047 by omega), if_pos h2, Nat.mod_eq_of_lt (by omega : r / 64 < 256),
      or_C0 _ (by omega), or_80 _ (by omega)]
  rw [if_neg (show ¬ r ≤ 2047 by omega), if_neg h2]
  by_cases h3 : r < 0x10000
  · rw [if_pos (show r ≤ 65535 by omega), if_pos h3, Nat.mod_eq_of_lt (by omega : r / 4096 < 256),
      or_E0 _ (by omega), or_80 _ (by omega), or_80 _ (by omega)]
  rw [if_neg (show ¬ r ≤ 65535 by omega), if_neg h3, Nat.mod_eq_of_lt (by omega : r / 262144 < 256),
    or_F0 _ (by omega), or_80 _ (by omega), or_80 _ (by omega), or_80 _ (by omega)]

theorem isCont_iff (b : Nat) : isCont b = true ↔ 0x80 ≤ b ∧ b ≤ 0xBF := by
  simp [isCont]

theorem decode2 (b0 b1 : Nat) (t : Bytes) (h : 0xC2 ≤ b0 ∧ b0 ≤ 0xDF) (h1 : isCont b1 = true) :
    decodeRune (b0 :: b1 :: t) = ((b0 - 0xC0) * 64 + (b1 - 0x80), 2) := by
  unfold decodeRune; dsimp only
  rw [if_neg (by omega), if_pos h, if_pos h1]

theorem decode3 (b0 b1 b2 : Nat) (t : Bytes) (h : 0xE0 ≤ b0 ∧ b0 ≤ 0xEF)
    (hc : (if b0 = 0xE0 then 0xA0 else 0x80) ≤ b1 ∧
                (b1 ≤ if b0 = 0xED then 0x9F else 0xBF) ∧ isCont b2 = true) :
    decodeRune (b0 :: b1 :: b2 :: t) =
      ((b0 - 0xE0) * 4096 + (b1 - 0x80) * 64 + (b2 - 0x80), 3) := by
  unfold decodeRune; dsimp only
  rw [if_neg (by omega), if_neg (by omega), if_pos h, if_pos hc]

theorem decode4 (b0 b1 b2 b3 : Nat) (t : Bytes) (h : 0xF0 ≤ b0 ∧ b0 ≤ 0xF4)
    (hc : (if b0 = 0xF0 then 0x90 else 0x80) ≤ b1 ∧
                  (b1 ≤ if b0 = 0xF4 then 0x8F else 0xBF) ∧ isCont b2 = true ∧ isCont b3 = true) :
    decodeRune (b0 :: b1 :: b2 :: b3 :: t) =
      ((b0 - 0xF0) * 262144 + (b1 - 0x80) * 4096 + (b2 - 0x80) * 64 + (b3 - 0x80), 4) := by
  unfold decodeRune; dsimp only
  rw [if_neg (by omega), if_neg (by omega), if_neg (by omega), if_pos h, if_pos hc]

theorem decode_encode (r : Nat) (h : r.isValidChar) (t : Bytes) :
    decodeRune (encodeRune r ++ t) = (r, (encodeRune r).length) := by
  have hr : r < 0x110000 ∧ ¬ (0xD800 ≤ r ∧ r ≤ 0xDFFF) := by
    unfold Nat.isValidChar at h; omega
  rw [encodeRune_eq r h]
  split
  · simp [decodeRune]; omega
  · split
    · simp only [List.cons_append, List.nil_append]
      rw [decode2 _ _ _ (by omega) (by rw [isCont_iff]; omega)]
      exact Prod.ext (by dsimp only; omega) rfl
    · split
      · simp only [List.cons_append, List.nil_append]
        rw [decode3 _ _ _ _ (by omega) ?_]
        · exact Prod.ext (by dsimp only; omega) rfl
        · refine ⟨?_, ?_, by rw [isCont_iff]; omega⟩ <;> split <;> omega
      · simp only [List.cons_append, List.nil_append]
        rw [decode4 _ _ _ _ _ (by omega) ?_]
        · exact Prod.ext (by dsimp only; omega) rfl
        · refine ⟨?_, ?_, by rw [isCont_iff]; omega, by rw [isCont_iff]; omega⟩ <;> split <;> omega

theorem encode_decode (b : Bytes) (r w : Nat) (hd : decodeRune b = (r, w))
    (h : r ≠ runeError ∨ w ≠ 1) (hne : b ≠ []) :
    r.isValidChar ∧ encodeRune r = b.take w := by
  cases b with
  | nil => exact absurd rfl hne
  | cons b0 t =>
    unfold decodeRune at hd
    dsimp only at hd
    have fin : ∀ r w : Nat, (r < 0x110000 ∧ ¬ (0xD800 ≤ r ∧ r ≤ 0xDFFF)) →
        (if r < 0x80 then [r]
        else if r < 0x800 then [0xC0 + r / 64, 0x80 + r % 64]
        else if r < 0x10000 then [0xE0 + r / 4096, 0x80 + r / 64 % 64, 0x80 + r % 64]
        else [0xF0 + r / 262144, 0x80 + r / 4096 % 64, 0x80 + r / 64 % 64, 0x80 + r % 64])
          = (b0 :: t).take w →
        r.isValidChar ∧ encodeRune r = (b0 :: t).take w := by
      intro r w hv he
      have hv' : r.isValidChar := by unfold Nat.isValidChar; omega
      exact ⟨hv', (encodeRune_eq r hv').trans he⟩
    have bad : (runeError, 1) = (r, w) → False := by
      intro he; simp only [Prod.mk.injEq] at he; obtain ⟨rfl, rfl⟩ := he; simp at h
    split at hd
    · simp only [Prod.mk.injEq] at hd; obtain ⟨rfl, rfl⟩ := hd
      refine fin _ _ (by omega) ?_
      rw [if_pos (by omega)]; simp
    · split at hd
      · rcases t with _ | ⟨b1, t⟩
        · exact (bad hd).elim
        · dsimp only at hd
          split at hd
          · rename_i hc; simp only [isCont, Bool.and_eq_true, decide_eq_true_eq] at hc
            simp only [Prod.mk.injEq] at hd; obtain ⟨rfl, rfl⟩ := hd
            refine fin _ _ (by omega) ?_
            rw [if_neg (by omega), if_pos (by omega)]
            simp; omega
          · exact (bad hd).elim
      · split at hd
        · rcases t with _ | ⟨b1, _ | ⟨b2, t⟩⟩
          · exact (bad hd).elim
          · exact (bad hd).elim
          · dsimp only at hd
            by_cases hc : (if b0 = 0xE0 then 0xA0 else 0x80) ≤ b1 ∧
                (b1 ≤ if b0 = 0xED then 0x9F else 0xBF) ∧ isCont b2 = true
            · rw [if_pos hc] at hd
              simp only [isCont, Bool.and_eq_true, decide_eq_true_eq] at hc
              obtain ⟨h1, h2, h3⟩ := hc
              have h1' : 0x80 ≤ b1 ∧ (b0 = 0xE0 → 0xA0 ≤ b1) := by split at h1 <;> omega
              have h2' : b1 ≤ 0xBF ∧ (b0 = 0xED → b1 ≤ 0x9F) := by split at h2 <;> omega
              simp only [Prod.mk.injEq] at hd; obtain ⟨rfl, rfl⟩ := hd
              refine fin _ _ (by omega) ?_
              rw [if_neg (by omega), if_neg (by omega), if_pos (by omega)]
              simp; omega
            · rw [if_neg hc] at hd; exact (bad hd).elim
        · split at hd
          · rcases t with _ | ⟨b1, _ | ⟨b2, _ | ⟨b3, t⟩⟩⟩
            · exact (bad hd).elim
            · exact (bad hd).elim
            · exact (bad hd).elim
            · dsimp only at hd
              by_cases hc : (if b0 = 0xF0 then 0x90 else 0x80) ≤ b1 ∧
                  (b1 ≤ if b0 = 0xF4 then 0x8F else 0xBF) ∧ isCont b2 = true ∧ isCont b3 = true
              · rw [if_pos hc] at hd
                simp only [isCont, Bool.and_eq_true, decide_eq_true_eq] at hc
                obtain ⟨h1, h2, h3, h4⟩ := hc
                have h1' : 0x80 ≤ b1 ∧ (b0 = 0xF0 → 0x90 ≤ b1) := by split at h1 <;> omega
                have h2' : b1 ≤ 0xBF ∧ (b0 = 0xF4 → b1 ≤ 0x8F) := by split at h2 <;> omega
                simp only [Prod.mk.injEq] at hd; obtain ⟨rfl, rfl⟩ := hd
                refine fin _ _ (by omega) ?_
                rw [if_neg (by omega), if_neg (by omega), if_neg (by omega)]
                simp; omega
              · rw [if_neg hc] at hd; exact (bad hd).elim
          · exact (bad hd).elim

end GQL
