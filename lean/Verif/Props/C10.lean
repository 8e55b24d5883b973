/-
C10 UTF-8 encoding and decoding are inverse.
-/
import Verif.Proofs.LexRun

namespace GQL
open Spec

/-- C10: `encodeRune` produces the UTF-8 encoding of the character (as defined by Lean's own
library), and decoding it gives the character and its width back, whatever follows. -/
theorem C10_decode_encode (c : Char) (t : Bytes) :
    encodeRune c.toNat = (String.utf8EncodeChar c).map UInt8.toNat ∧
    decodeRune (encodeRune c.toNat ++ t) = (c.toNat, (encodeRune c.toNat).length) :=
  ⟨(utf8Char_eq c).symm, decode_encode c.toNat (char_valid c) t⟩

/-- Encoded texts are equal only if the texts are: no character is altered or split. -/
theorem C10_injective (a b : List Char) : utf8 a = utf8 b ↔ a = b := ⟨utf8_inj, fun h => h ▸ rfl⟩

/-- Reading a character of the text from the input gives the character and moves past exactly its bytes. -/
theorem C10_read (l : Lexer) (c : Char) (cs : List Char) (hp : l.pos ≤ l.input.length)
    (ha : l.input.drop l.pos = utf8 (c :: cs)) :
    l.rd = (c.toNat, (utf8Char c).length, { l with pos := l.pos + (utf8Char c).length, lpos := l.lpos + 1 }) ∧
    l.input.drop (l.pos + (utf8Char c).length) = utf8 cs := by
  have h : At l (c :: cs) := ⟨hp, ha⟩
  refine ⟨by rw [rd_cons h, advs_one]; rfl, ?_⟩
  have := h.adv1.eq
  rw [advs_one] at this; exact this

/-- Surrogates and numbers beyond U+10FFFF are encoded as U+FFFD. -/
theorem C10_invalid (r : Nat) (h : ¬ r.isValidChar) : encodeRune r = encodeRune 0xFFFD := by
  have hs : (0xD800 ≤ r ∧ r ≤ 0xDFFF) ∨ r > 0x10FFFF := by unfold Nat.isValidChar at h; omega
  have e : encodeRune 0xFFFD = [0xEF, 0xBF, 0xBD] := by decide
  rw [e]
  unfold encodeRune
  rw [if_neg (by omega), if_neg (by omega)]
  have hb : (decide (r > 0x10FFFF) || (decide (0xD800 ≤ r) && decide (r ≤ 0xDFFF))) = true := by
    simp; omega
  rw [hb]
  simp only [if_true]
  rfl

example : encodeRune 'é'.toNat = [0xC3, 0xA9] ∧ encodeRune '€'.toNat = [0xE2, 0x82, 0xAC] ∧
    encodeRune '𝄞'.toNat = [0xF0, 0x9D, 0x84, 0x9E] := by decide

end GQL
