/-
C06 String escapes decode to the characters they denote.
C07 Block strings get the value the specification's BlockStringValue algorithm gives.
-/
import Verif.Props.C03

namespace GQL
open Spec

/-- `Scan` at a character that is not ignored. -/
theorem scan_at {l : Lexer} {c : Char} {t : List Char} (h : At l (c :: t)) (hi : ignored c = false)
    (hc : c ≠ '#') : scan l = scanTok c.toNat (cw c) (l.advs [c]) := by
  have hnat : ¬ (c.toNat = 13 ∨ c.toNat = 10 ∨ c.toNat = 9 ∨ c.toNat = 32 ∨ c.toNat = 44 ∨ c.toNat = 0xFEFF) := by
    rw [← ignored_nat, hi]; simp
  have hf : l.fuel = (l.fuel - 1) + 1 := by unfold Lexer.fuel; omega
  have e : ∀ n, readNextSignificant (n + 1) false l = .ret (c.toNat, cw c, l.advs [c]) := by
    intro n
    unfold readNextSignificant
    rw [rd_cons h]; dsimp only
    rw [if_neg (by omega), if_neg (by omega), if_neg (by omega)]
  unfold scan
  rw [hf, scanF, hf, e]; dsimp only
  have hc' : ¬ c.toNat = 35 := fun hh => hc (toNat_inj (d := '#') hh)
  unfold scanTok
  rw [if_neg hc']

/-- C06: when the lexer stands at a quote that does not open a block string, it returns the string with
its escapes replaced, and stands after the closing quote; if the text is not a string the
token is Illegal. -/
theorem C06_strings (l : Lexer) (s : List Char) (hp : l.pos ≤ l.input.length)
    (ha : l.input.drop l.pos = utf8 ('"' :: s)) (h0 : '\x00' ∉ s) (hb : ¬ ['"', '"'] <+: s) :
    (∀ v rest, StrText s v rest →
      ∃ t l', scan l = .ret (t, l') ∧ t.kind = .stringValue ∧ t.lit = utf8 v ∧
        l'.input = l.input ∧ l.input.drop l'.pos = utf8 rest) ∧
    ((¬ ∃ v rest, StrText s v rest) → ∃ t l', scan l = .ret (t, l') ∧ t.kind = .illegal) := by
  have hat : At l ('"' :: s) := ⟨hp, ha⟩
  have hz : NoNul ('"' :: s) := noNul_of (by simp only [List.mem_cons, not_or]; exact ⟨by decide, h0⟩)
  rw [scan_at hat (by decide) (by decide)]
  constructor
  · intro v rest hst
    obtain ⟨lx, e⟩ := hst.split
    have hlex : Lexeme GoBlock (('"' :: lx) ++ rest) ⟨.string, v⟩ rest := by
      have := Lexeme.string (B := GoBlock) hst (by
        rintro rfl c t rfl
        cases hst
        cases hc : (c == '"') with
        | false => exact hc
        | true =>
          simp only [beq_iff_eq] at hc; subst hc
          exact absurd ⟨t, rfl⟩ hb)
      rw [e] at this; exact this
    rw [e] at hat hz
    obtain ⟨t, l', h1, h2⟩ := lexeme_complete hlex hat hz
    exact ⟨t, l', h1, h2.kind, h2.lit, h2.input, by have := h2.at'.eq; rwa [h2.input] at this⟩
  · intro hn
    have a1 := hat.adv1
    have hnb : ∀ t, s ≠ '"' :: '"' :: t := by rintro t rfl; exact hb ⟨t, rfl⟩
    obtain ⟨lp, e1, -⟩ := scanQuote_string a1 hnb
    rcases scanString_sound (l := { l.advs ['"'] with lpos := lp }) ⟨a1.le, a1.eq⟩ hz.tail with h | ⟨tk, l', e, hk⟩
    · exact absurd h hn
    · exact ⟨tk, l', scanTok_quote.trans (e1.trans e), hk⟩

/-- `"a\u00e9\n"` and what follows it. -/
example : StrText c!"a\\u00e9\\n\" x" c!"aé\n" c!" x" :=
  .char 'a' (by decide) (by decide) (by decide)
    (.unicode (a := '0') (b := '0') (c := 'e') (d := '9') (i := 0) (j := 0) (k := 14) (m := 9) rfl rfl rfl rfl
      (.esc 'n' '\n' (by decide) (.close _)))

example : tokens b!"\"a\\u00e9\\n\" x" = .ret [⟨.stringValue, [97, 0xC3, 0xA9, 10], 1, 1⟩,
    ⟨.name, b!"x", 1, 13⟩, ⟨.eof, [], 1, 14⟩] := by decide

/-- An unknown escape, a bad hexadecimal digit and a raw line break are rejected. -/
example : ¬ ∃ v rest, StrText c!"\\q\"" v rest := by
  rintro ⟨v, rest, h⟩
  cases h with
  | char _ _ h => exact h rfl
  | esc _ _ h => revert h; simp [escapeTable]

/-- C07, as the code reads block strings: on every text without NUL. -/
theorem C07_blocks (l : Lexer) (s : List Char) (hp : l.pos ≤ l.input.length)
    (ha : l.input.drop l.pos = utf8 (quotes3 ++ s)) (h0 : '\x00' ∉ s) :
    (∀ v rest, GoBlock s v rest →
      ∃ t l', scan l = .ret (t, l') ∧ t.kind = .stringValue ∧ t.lit = utf8 v ∧
        l'.input = l.input ∧ l.input.drop l'.pos = utf8 rest) ∧
    ((¬ ∃ v rest, GoBlock s v rest) → ∃ t l', scan l = .ret (t, l') ∧ t.kind = .illegal) := by
  have hat : At l ('"' :: '"' :: '"' :: s) := ⟨hp, ha⟩
  have hz : NoNul ('"' :: '"' :: '"' :: s) :=
    noNul_of (by simp only [List.mem_cons, not_or]; exact ⟨by decide, by decide, by decide, h0⟩)
  rw [scan_at hat (by decide) (by decide)]
  constructor
  · rintro v rest hst
    obtain ⟨lx, rfl⟩ := goBlock_split hst
    have hlex : Lexeme GoBlock ((quotes3 ++ lx) ++ rest) ⟨.string, v⟩ rest := by
      have := Lexeme.block (B := GoBlock) hst
      rw [← List.append_assoc] at this; exact this
    have hat' : At l ((quotes3 ++ lx) ++ rest) := by simpa [quotes3] using hat
    have hz' : NoNul ((quotes3 ++ lx) ++ rest) := by simpa [quotes3] using hz
    obtain ⟨t, l', h1, h2⟩ := lexeme_complete hlex hat' hz'
    refine ⟨t, l', ?_, h2.kind, h2.lit, h2.input, by have := h2.at'.eq; rwa [h2.input] at this⟩
    rw [← h1]; rfl
  · intro hn
    have a1 := hat.adv1
    have a3 : At ((l.advs ['"']).advs ['"', '"']) s := At.advs (a := ['"', '"']) a1
    rcases scanBlock_sound a3 hz.tail.tail.tail with ⟨raw, rest, h⟩ | ⟨tk, l', e, hk⟩
    · exact absurd ⟨_, rest, raw, h, rfl⟩ hn
    · exact ⟨tk, l', scanTok_quote.trans ((scanQuote_block a1).trans e), hk⟩

/-- C07 for block strings without CR, control characters and `\\`: the value is
BlockStringValue of the raw content.  (`Plain lx`, where `lx` is the block string.) -/
theorem C07_blocks_partial (l : Lexer) (lx rest v : List Char) (hp : l.pos ≤ l.input.length)
    (ha : l.input.drop l.pos = utf8 (quotes3 ++ (lx ++ rest))) (h0 : '\x00' ∉ lx ++ rest) (hpl : Plain lx)
    (hv : SpecBlock (lx ++ rest) v rest) :
    ∃ t l', scan l = .ret (t, l') ∧ t.kind = .stringValue ∧ t.lit = utf8 v ∧
        l'.input = l.input ∧ l.input.drop l'.pos = utf8 rest :=
  (C07_blocks l _ hp ha h0).1 v rest ((goBlock_iff_spec hpl).2 hv)

/-- The hypotheses of `C07_blocks_partial` are met by an indented two-line block string. -/
example : Plain c!"\n   a\n    b\"\"\"" ∧
    SpecBlock (c!"\n   a\n    b\"\"\"" ++ []) c!"a\n b" [] := by
  refine ⟨⟨by decide, by decide⟩, c!"\n   a\n    b", ?_, by decide⟩
  repeat' first
    | exact .close _
    | refine .char _ (by decide) (by decide) (by decide) ?_

example : tokens b!"\"\"\"\n   a\n    b\"\"\"" = .ret [⟨.stringValue, b!"a\n b", 1, 1⟩, ⟨.eof, [], 3, 18⟩] := by
  decide

/-- C07 as stated is false: CRLF inside a block string becomes two line breaks ... -/
theorem C07_refuted_crlf :
    SpecBlock c!"a\r\nb\"\"\"" c!"a\nb" [] ∧
    tokens (utf8 c!"\"\"\"a\r\nb\"\"\"") = .ret [⟨.stringValue, b!"a\n\nb", 1, 1⟩, ⟨.eof, [], 3, 11⟩] := by
  refine ⟨⟨c!"a\r\nb", ?_, by decide⟩, by decide⟩
  repeat' first
    | exact .close _
    | refine .char _ (by decide) (by decide) (by decide) ?_

/-- ... a backslash hides the one after it, so that `\\"""` closes the string, although the
specification reads an escaped `"""` there and the string is not closed ... -/
theorem C07_refuted_backslash :
    (¬ ∃ v rest, SpecBlock c!"\\\\\"\"\"" v rest) ∧
    tokens (utf8 c!"\"\"\"\\\\\"\"\"") = .ret [⟨.stringValue, b!"\\\\", 1, 1⟩, ⟨.eof, [], 1, 9⟩] := by
  refine ⟨?_, by decide⟩
  rintro ⟨v, rest, raw, h, -⟩
  cases h with
  | char _ h1 h2 h3 h =>
    cases h with
    | esc h => cases h
    | char _ h1 h2 => exact h2 (by decide)

/-- ... and a CR two characters before a LF is dropped. -/
theorem C07_refuted_cr :
    SpecBlock c!"a\rb\nc\"\"\"" c!"a\nb\nc" [] ∧
    tokens (utf8 c!"\"\"\"a\rb\nc\"\"\"") = .ret [⟨.stringValue, b!"ab\nc", 1, 1⟩, ⟨.eof, [], 2, 12⟩] := by
  refine ⟨⟨c!"a\rb\nc", ?_, by decide⟩, by decide⟩
  repeat' first
    | exact .close _
    | refine .char _ (by decide) (by decide) (by decide) ?_

end GQL
