/-
C04 Name tokens are GraphQL names.
C05 Nothing after an early end-of-input marker is silently dropped.

Both fail as stated: the lexer takes NUL for the end of the input and reads a lone last
byte ≥ 0x80 as end of input too.  Proved: the exact shape of names on every input, the full
property for inputs without NUL byte whose last byte is ASCII, and refutations.
-/
import Verif.Props.C01
import Verif.Props.C03
import Verif.Proofs.LexBytes

namespace GQL
open Spec

theorem nameBytes (w : Bytes) (h : ∀ b ∈ w, isNameCont b = true) :
    ∃ cs : List Char, utf8 cs = w ∧ ∀ c ∈ cs, nameCont c = true := by
  induction w with
  | nil => exact ⟨[], rfl, by simp⟩
  | cons b w ih =>
    obtain ⟨cs, e, hc⟩ := ih (fun b hb => h b (List.mem_cons_of_mem _ hb))
    have hb := h b (List.mem_cons_self ..)
    have hlt : b < 128 := by
      simp only [isNameCont, isDigit, isNameStart, Bool.or_eq_true, Bool.and_eq_true, decide_eq_true_eq,
        beq_iff_eq] at hb
      omega
    have hv : (Char.ofNat b).toNat = b := toNat_ofNat (by unfold Nat.isValidChar; omega)
    refine ⟨Char.ofNat b :: cs, ?_, ?_⟩
    · rw [utf8_cons, utf8Char_ascii _ (by omega), hv, e]; rfl
    · intro c hcm
      rcases List.mem_cons.1 hcm with rfl | hcm
      · rw [← isNameCont_char, hv]; exact hb
      · exact hc c hcm

/-- C04, on every input: a Name token's literal is the bytes before the new position; it is
a GraphQL name `c :: w`, followed by nothing (and then the next byte does not continue the name), by a NUL
byte, or, at the end of the input, by a single byte ≥ 0x80. -/
theorem C04_name_bytes (input : Bytes) (l : Lexer) (hr : Reach input l) (t : Token) (l' : Lexer)
    (e : scan l = .ret (t, l')) (hk : t.kind = .name) :
    ∃ (c : Char) (w : List Char) (x : Bytes), t.lit = utf8 (c :: w) ++ x ∧ nameStart c = true ∧
      (∀ d ∈ w, nameCont d = true) ∧ t.lit <:+ input.take l'.pos ∧
      ((x = [] ∧ ∀ d : Char, nameCont d = true → input[l'.pos]? ≠ some d.toNat) ∨ x = [0] ∨
       (∃ b, x = [b] ∧ 0x80 ≤ b ∧ l'.pos = input.length)) := by
  obtain ⟨hin, hpos⟩ := hr.inv
  obtain ⟨m, l1, r, wd, l0, e1, hi1, hp1, e2⟩ := scanF_cases (by rw [hin]; exact hpos) e
  obtain ⟨hns, e3⟩ := scanTok_name_inv e2 hk
  obtain ⟨g1, -, g2, -, g3⟩ := rns_cases hp1 e1
  have hi : l1.input = input := hi1.trans hin
  rw [hi] at g1 g2 g3
  have hrr : 0 < r ∧ r < 0x80 := by
    simp only [isNameStart, Bool.or_eq_true, Bool.and_eq_true, decide_eq_true_eq, beq_iff_eq] at hns
    omega
  obtain ⟨q, hq, hb⟩ := g3 hrr.1 hrr.2
  unfold scanName at e3
  split at e3
  · cases e3
  · cases e3
  · rename_i lE e4
    obtain ⟨w, x, h1, h2, h3, h4, h5⟩ := nameLoop_bytes (by rw [g1]; exact g2) e4
    rw [g1] at h1 h3 h5
    have hl0 : l0.pos - 1 = q := by omega
    have hle := List.IsPrefix.length_le h3
    rw [List.length_drop] at hle
    rw [hl0, h1, slice_some (by omega) (by omega)] at e3
    cases e3
    have hqlt : q < input.length := by omega
    have hdq : input.drop q = r :: input.drop l0.pos := by
      rw [List.drop_eq_getElem_cons hqlt, hq]
      congr 1
      rw [List.getElem?_eq_getElem hqlt] at hb; exact Option.some.inj hb
    have hlit : (input.drop q).take (l'.pos - q) = r :: (w ++ x) := by
      rw [hdq, show l'.pos - q = (w ++ x).length + 1 by omega, List.take_succ_cons]
      congr 1
      obtain ⟨y, hy⟩ := h3
      rw [← hy, List.take_left]
    obtain ⟨cs, hcs, hcs2⟩ := nameBytes w h4
    have hv : (Char.ofNat r).toNat = r := toNat_ofNat (by unfold Nat.isValidChar; omega)
    refine ⟨Char.ofNat r, cs, x, ?_, ?_, hcs2, ?_, ?_⟩
    · dsimp only
      rw [hlit, utf8_cons, utf8Char_ascii _ (by omega), hv, hcs]; simp
    · rw [← isNameStart_char, hv]; exact hns
    · dsimp only
      refine ⟨input.take q, ?_⟩
      rw [← List.take_add, show q + (l'.pos - q) = l'.pos by omega]
    · rcases h5 with ⟨h5, h6⟩ | h5 | h5
      · refine .inl ⟨h5, ?_⟩
        intro d hd hh
        have := h6 _ hh
        rw [isNameCont_char, hd] at this; cases this
      · exact .inr (.inl h5)
      · exact .inr (.inr h5)

/-- C04 for inputs without NUL bytes whose last byte is ASCII: the literal of a Name token is a
GraphQL name, taken from the source and maximal. -/
theorem C04_name_partial (input : Bytes) (h0 : 0 ∉ input)
    (hlast : ∀ b, input.getLast? = some b → b < 0x80)
    (l : Lexer) (hr : Reach input l) (t : Token) (l' : Lexer)
    (e : scan l = .ret (t, l')) (hk : t.kind = .name) :
    ∃ (c : Char) (w : List Char), t.lit = utf8 (c :: w) ∧ nameStart c = true ∧
      (∀ d ∈ w, nameCont d = true) ∧ t.lit <:+ input.take l'.pos ∧
      ∀ d : Char, nameCont d = true → input[l'.pos]? ≠ some d.toNat := by
  obtain ⟨c, w, x, h1, h2, h3, h4, h5⟩ := C04_name_bytes input l hr t l' e hk
  rcases h5 with ⟨rfl, h5⟩ | rfl | ⟨b, rfl, h5, h6⟩
  · exact ⟨c, w, by simpa using h1, h2, h3, h4, h5⟩
  · exfalso
    apply h0
    have : (0 : Nat) ∈ t.lit := by rw [h1]; simp
    exact List.mem_of_mem_take (List.IsSuffix.subset h4 this)
  · exfalso
    rw [h6, List.take_length] at h4
    obtain ⟨p, hp⟩ := h4
    have := hlast b (by rw [← hp, h1, ← List.append_assoc, List.getLast?_append]; simp)
    omega

/-- C04 as stated is false: `a` NUL is scanned as a Name with a NUL in it, and a truncated
character at the end of the input gets into the name. -/
theorem C04_refuted :
    tokens [97, 0] = .ret [⟨.name, [97, 0], 1, 1⟩, ⟨.eof, [], 1, 3⟩] ∧
    tokens [97, 0xC3] = .ret [⟨.name, [97, 0xC3], 1, 1⟩, ⟨.eof, [], 1, 3⟩] := by decide

/-- The hypotheses of `C04_name_partial` are met. -/
example : Reach b!"{ _a1-" ⟨b!"{ _a1-", 1, 1, 1⟩ ∧ scan ⟨b!"{ _a1-", 1, 1, 1⟩ =
    .ret (⟨.name, b!"_a1", 1, 3⟩, ⟨b!"{ _a1-", 5, 5, 1⟩) :=
  ⟨.scan .new (show scan (newLexer _) = .ret (⟨.punctuator, b!"{", 1, 1⟩, _) by decide), by decide⟩

/-- C05 at the level of tokens, for inputs without NUL bytes: EOF only at the end of the input. -/
theorem C05_eof_partial (input : Bytes) (h0 : 0 ∉ input) (l : Lexer) (hr : Reach input l)
    (t : Token) (l' : Lexer) (e : scan l = .ret (t, l')) (hk : t.kind = .eof) :
    l'.pos = input.length := by
  obtain ⟨hin, hpos⟩ := hr.inv
  obtain ⟨m, l1, r, wd, l0, e1, hi1, hp1, e2⟩ := scanF_cases (by rw [hin]; exact hpos) e
  obtain ⟨rfl, rfl⟩ := scanTok_eof_inv e2 hk
  obtain ⟨g1, -, g2, g3, -⟩ := rns_cases hp1 e1
  rw [hi1.trans hin] at g3
  rcases g3 rfl with h | ⟨q, -, h⟩
  · exact h
  · exact absurd (List.mem_of_getElem? h) h0

/-- C05 is false in general: a NUL byte ends the token stream and hides what follows. -/
theorem C05_refuted :
    tokens (b!"{a}" ++ [0] ++ b!"this is not ( GraphQL \"") =
      .ret [⟨.punctuator, b!"{", 1, 1⟩, ⟨.name, b!"a", 1, 2⟩, ⟨.punctuator, b!"}", 1, 3⟩,
        ⟨.eof, [], 1, 5⟩] := by decide

/-- The hypotheses of `C05_eof_partial` are met in a state not at the start. -/
example : Reach b!"{ " ⟨b!"{ ", 1, 1, 1⟩ ∧ scan ⟨b!"{ ", 1, 1, 1⟩ =
    .ret (⟨.eof, [], 1, 3⟩, ⟨b!"{ ", 2, 2, 1⟩) :=
  ⟨.scan .new (show scan (newLexer _) = .ret (⟨.punctuator, b!"{", 1, 1⟩, _) by decide), by decide⟩

end GQL
