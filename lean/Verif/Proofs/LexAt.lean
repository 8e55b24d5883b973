/-
Reading characters: the lexer standing at a UTF-8 encoded text.
-/
import Verif.Proofs.LexTotal
import Verif.Proofs.Utf8
import Verif.Spec.Lex

namespace GQL
open Spec

theorem char_valid (c : Char) : c.toNat.isValidChar := c.valid

theorem utf8Char_eq (c : Char) : utf8Char c = encodeRune c.toNat := by
  have hv : c.toNat.isValidChar := c.valid
  have hr : c.toNat < 0x110000 ∧ ¬ (0xD800 ≤ c.toNat ∧ c.toNat ≤ 0xDFFF) := by
    unfold Nat.isValidChar at hv; omega
  rw [encodeRune_eq _ hv]
  unfold utf8Char String.utf8EncodeChar
  have hc : c.val.toNat = c.toNat := rfl
  dsimp only
  rw [hc]
  generalize c.toNat = n at *
  have of : ∀ n, n < 256 → (UInt8.ofNat n).toNat = n := fun n h => by simp; omega
  by_cases h1 : n < 0x80
  · rw [if_pos (show n ≤ 0x7f by omega), if_pos h1]
    simp only [List.map_cons, List.map_nil]
    rw [of _ (by omega)]
  rw [if_neg (show ¬ n ≤ 0x7f by omega), if_neg h1]
  by_cases h2 : n < 0x800
  · rw [if_pos (show n ≤ 0x7ff by omega), if_pos h2]
    simp only [List.map_cons, List.map_nil]
    rw [of _ (by omega), of _ (by omega), Nat.add_comm, Nat.mod_eq_of_lt (by omega), Nat.add_comm (n % 64)]
  rw [if_neg (show ¬ n ≤ 0x7ff by omega), if_neg h2]
  by_cases h3 : n < 0x10000
  · rw [if_pos (show n ≤ 0xffff by omega), if_pos h3]
    simp only [List.map_cons, List.map_nil]
    rw [of _ (by omega), of _ (by omega), of _ (by omega)]
    simp only [List.cons.injEq, and_true]; refine ⟨?_, ?_, ?_⟩ <;> omega
  · rw [if_neg (show ¬ n ≤ 0xffff by omega), if_neg h3]
    simp only [List.map_cons, List.map_nil]
    rw [of _ (by omega), of _ (by omega), of _ (by omega), of _ (by omega)]
    simp only [List.cons.injEq, and_true]; refine ⟨?_, ?_, ?_, ?_⟩ <;> omega

theorem utf8_nil : utf8 [] = [] := rfl
theorem utf8_cons (c : Char) (cs : List Char) : utf8 (c :: cs) = utf8Char c ++ utf8 cs := rfl
theorem utf8_append (a b : List Char) : utf8 (a ++ b) = utf8 a ++ utf8 b := by
  simp [utf8]

theorem utf8Char_ascii (c : Char) (h : c.toNat < 128) : utf8Char c = [c.toNat] := by
  rw [utf8Char_eq, encodeRune_eq _ (char_valid c), if_pos h]

theorem utf8Char_ne_nil (c : Char) : utf8Char c ≠ [] := by
  rw [utf8Char_eq, encodeRune_eq _ (char_valid c)]
  repeat' split
  all_goals simp

theorem utf8Char_length_pos (c : Char) : 0 < (utf8Char c).length :=
  List.length_pos_iff.2 (utf8Char_ne_nil c)

/-- The first byte of a non-ASCII character is at least 0x80, and another byte follows. -/
theorem utf8Char_wide (c : Char) (h : ¬ c.toNat < 128) :
    ∃ b b' t, utf8Char c = b :: b' :: t ∧ 0x80 ≤ b ∧ 0x80 ≤ b' := by
  rw [utf8Char_eq, encodeRune_eq _ (char_valid c), if_neg h]
  repeat' split
  all_goals exact ⟨_, _, _, rfl, by omega, by omega⟩

/-- The lexer `l` stands at the text `cs`. -/
structure At (l : Lexer) (cs : List Char) : Prop where
  le : l.pos ≤ l.input.length
  eq : l.input.drop l.pos = utf8 cs

/-- The lexer after reading the characters `cs`. -/
def Lexer.advs (l : Lexer) (cs : List Char) : Lexer :=
  { l with pos := l.pos + (utf8 cs).length, lpos := l.lpos + cs.length }

theorem advs_nil (l : Lexer) : l.advs [] = l := by simp [Lexer.advs, utf8_nil]

theorem advs_append (l : Lexer) (a b : List Char) : l.advs (a ++ b) = (l.advs a).advs b := by
  simp [Lexer.advs, utf8_append, Nat.add_assoc]

theorem advs_cons (l : Lexer) (c : Char) (b : List Char) : l.advs (c :: b) = (l.advs [c]).advs b :=
  advs_append l [c] b

theorem At.length {l : Lexer} {cs : List Char} (h : At l cs) :
    l.pos + (utf8 cs).length = l.input.length := by
  have := congrArg List.length h.eq
  have := h.le
  simp at *; omega

theorem At.of_length {l : Lexer} {cs : List Char} (h : l.input.drop l.pos = utf8 cs)
    (hl : l.pos + (utf8 cs).length = l.input.length) : At l cs := ⟨by omega, h⟩

theorem At.advs {l : Lexer} {a b : List Char} (h : At l (a ++ b)) : At (l.advs a) b := by
  have hl := h.length
  rw [utf8_append, List.length_append] at hl
  refine ⟨by simp [Lexer.advs]; omega, ?_⟩
  have : l.input.drop (l.pos + (utf8 a).length) = (l.input.drop l.pos).drop (utf8 a).length := by
    rw [List.drop_drop]
  simp only [Lexer.advs]
  rw [this, h.eq, utf8_append, List.drop_left]

theorem At.adv1 {l : Lexer} {c : Char} {b : List Char} (h : At l (c :: b)) : At (l.advs [c]) b :=
  At.advs (a := [c]) h

/-- changing the counters keeps the position. -/
theorem At.upd {l : Lexer} {cs : List Char} (h : At l cs) (lp ln : Nat) :
    At { l with lpos := lp, line := ln } cs := ⟨h.le, h.eq⟩

/-- Width of a character in bytes. -/
def cw (c : Char) : Nat := (utf8Char c).length

theorem advs_one (l : Lexer) (c : Char) :
    l.advs [c] = { l with pos := l.pos + cw c, lpos := l.lpos + 1 } := by
  simp [Lexer.advs, utf8, cw]

theorem rd_eof {l : Lexer} (h : At l []) : l.rd = (0, 0, l) := by
  have := h.length
  simp [utf8] at this
  simp [Lexer.rd, Lexer.read, List.getElem?_eq_none (by omega : l.input.length ≤ l.pos)]

theorem rd_cons {l : Lexer} {c : Char} {cs : List Char} (h : At l (c :: cs)) :
    l.rd = (c.toNat, cw c, l.advs [c]) := by
  have hl := h.length
  have he := h.eq
  rw [utf8_cons] at he hl
  rw [List.length_append] at hl
  have hpos := utf8Char_length_pos c
  have hget : ∀ b t, utf8Char c = b :: t → l.input[l.pos]? = some b := by
    intro b t hb
    have := congrArg (fun x => x[0]?) he
    simpa [hb] using this
  rw [advs_one]
  by_cases h1 : c.toNat < 128
  · have hc := utf8Char_ascii c h1
    have hg := hget _ _ hc
    simp only [Lexer.rd, Lexer.read, hg]
    rw [if_neg (by omega)]
    simp [cw, hc]
  · obtain ⟨b, b', t, hc, hb, -⟩ := utf8Char_wide c h1
    have hg := hget _ _ hc
    simp only [Lexer.rd, Lexer.read, hg]
    rw [if_pos hb]
    simp only [Lexer.readUnicode]
    rw [if_neg (by rw [hc] at hl; simp at hl; omega)]
    simp only [Nat.add_sub_cancel]
    rw [he, utf8Char_eq, decode_encode _ (char_valid c), cw, utf8Char_eq]
    simp only [Prod.mk.injEq, true_and]
    congr 1; omega

theorem unread_adv (l : Lexer) (c : Char) : (l.advs [c]).unread (cw c) = l := by
  rw [advs_one]; simp [Lexer.unread]

/-- The bytes between two positions. -/
theorem slice_at {l : Lexer} {a b : List Char} (h : At l (a ++ b)) :
    slice l.input l.pos (l.pos + (utf8 a).length) = some (utf8 a) := by
  have hl := h.length
  rw [utf8_append, List.length_append] at hl
  rw [slice_some (by omega) (by omega), h.eq, utf8_append]
  simp

theorem toNat_inj {c d : Char} (h : c.toNat = d.toNat) : c = d :=
  Char.ext (UInt32.toNat_inj.mp h)

/-- No NUL character. -/
def NoNul (cs : List Char) : Prop := ∀ c ∈ cs, c.toNat ≠ 0

theorem NoNul.tail {c : Char} {cs : List Char} (h : NoNul (c :: cs)) : NoNul cs :=
  fun d hd => h d (List.mem_cons_of_mem _ hd)
theorem NoNul.head {c : Char} {cs : List Char} (h : NoNul (c :: cs)) : c.toNat ≠ 0 :=
  h c (List.mem_cons_self ..)
theorem NoNul.right {a b : List Char} (h : NoNul (a ++ b)) : NoNul b :=
  fun d hd => h d (List.mem_append_right _ hd)

theorem fuel_length {l : Lexer} {cs : List Char} (h : At l cs) : cs.length < l.fuel := by
  have hl := h.length
  have : cs.length ≤ (utf8 cs).length := by
    clear hl h
    induction cs with
    | nil => simp
    | cons c cs ih =>
      have := utf8Char_length_pos c
      rw [utf8_cons, List.length_append, List.length_cons]; omega
  unfold Lexer.fuel; omega

end GQL
