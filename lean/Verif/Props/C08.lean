/-
C08 Token line numbers are right.
C09 Token columns are right.

Both fail in general; proved for the inputs on which they hold, with refutations for the others.
-/
import Verif.Props.C03

namespace GQL
open Spec

theorem run_new (cs : List Char) (h : '\x00' ∉ cs) (items : List Item) (rest : List Char)
    (hl : Lex GoBlock [] cs items rest) (hf : rest = [] ∨ Stuck GoBlock rest) :
    ∃ toks last, tokens (utf8 cs) = .ret (toks ++ [last]) ∧ SameTokens toks items ∧
      ('\r' ∉ cs → toks.map (·.line) = items.map (fun i => lineAfter i.before)) ∧
      (crlf false cs → (∀ i ∈ items, ∀ c ∈ i.chars, lineTerm c = false) →
        toks.map (·.line) = items.map (fun i => lineAfter i.before)) ∧
      ('\r' ∉ cs → (∀ i ∈ items, ∀ c ∈ i.chars, c ≠ '\n') →
        (∀ i ∈ items, i.chars = ['"', '"'] → i.before ++ i.chars ≠ cs) →
        toks.map (·.col) = items.map (fun i => ((columnAfter i.before : Nat) : Int))) := by
  obtain ⟨i2, r2, toks, last, h1, h2, h3, h4, h5, h6, h7, h8⟩ :=
    tokensF_at (n := (utf8 cs).length + 2) (at_new cs) (noNul_of h)
      (by have := length_utf8_le cs; omega) []
  obtain ⟨rfl, rfl⟩ := C03_deterministic cs h _ _ _ _ hl hf h1 h2
  have hb : ∀ i ∈ items, ∃ post, cs = i.before ++ post := by
    intro i hi
    obtain ⟨post, e⟩ := lex_items hl i hi
    exact ⟨i.chars ++ post, by rw [List.nil_append] at e; rw [e]; simp⟩
  have hcr : '\r' ∉ cs → CRfree cs := fun hn c hc hh => hn (hh ▸ hc)
  refine ⟨toks, last, h3, h4, ?_, ?_, ?_⟩
  · intro hn
    rw [h6 (hcr hn) rfl]
    apply List.map_congr_left
    intro i hi
    obtain ⟨post, e⟩ := hb i hi
    have := hcr hn; rw [e] at this
    exact (lineAfter_lf this.left).symm
  · intro hc hs
    rw [h7 ⟨_, hc⟩ (by rintro c t rfl rfl; exact absurd (hc.1 rfl) (by decide)) hs rfl]
    apply List.map_congr_left
    intro i hi
    obtain ⟨post, e⟩ := hb i hi
    rw [e] at hc
    exact (lineAfter_crlf (Nat.le_refl _) (crlf_left hc)).symm
  · intro hn hs hq
    rw [h8 (hcr hn) hs (by simpa using hq) rfl]
    apply List.map_congr_left
    intro i hi
    obtain ⟨post, e⟩ := hb i hi
    have := hcr hn; rw [e] at this
    rw [columnAfter_lf this.left]

/-- C08 for texts with LF line ends only: every token has the line of its first character. -/
theorem C08_lines_partial (cs : List Char) (h : '\x00' ∉ cs) (hcr : '\r' ∉ cs)
    (items : List Item) (rest : List Char)
    (hl : Lex GoBlock [] cs items rest) (hf : rest = [] ∨ Stuck GoBlock rest) :
    ∃ toks last, tokens (utf8 cs) = .ret (toks ++ [last]) ∧ SameTokens toks items ∧
      toks.map (·.line) = items.map (fun i => lineAfter i.before) := by
  obtain ⟨toks, last, h1, h2, h3, -⟩ := run_new cs h items rest hl hf
  exact ⟨toks, last, h1, h2, h3 hcr⟩

/-- C08 for texts with CRLF or CR line ends (every LF comes right after a CR) whose tokens do not
contain line terminators. -/
theorem C08_lines_crlf_partial (cs : List Char) (h : '\x00' ∉ cs) (hcr : crlf false cs)
    (items : List Item) (rest : List Char)
    (hl : Lex GoBlock [] cs items rest) (hf : rest = [] ∨ Stuck GoBlock rest)
    (hs : ∀ i ∈ items, ∀ c ∈ i.chars, lineTerm c = false) :
    ∃ toks last, tokens (utf8 cs) = .ret (toks ++ [last]) ∧ SameTokens toks items ∧
      toks.map (·.line) = items.map (fun i => lineAfter i.before) := by
  obtain ⟨toks, last, h1, h2, -, h3, -⟩ := run_new cs h items rest hl hf
  exact ⟨toks, last, h1, h2, h3 hcr hs⟩

/-- C09 for texts with LF line ends only, whose tokens lie on one line each, and which do
not end in an empty string. -/
theorem C09_columns_partial (cs : List Char) (h : '\x00' ∉ cs) (hcr : '\r' ∉ cs)
    (items : List Item) (rest : List Char)
    (hl : Lex GoBlock [] cs items rest) (hf : rest = [] ∨ Stuck GoBlock rest)
    (hs : ∀ i ∈ items, ∀ c ∈ i.chars, c ≠ '\n')
    (hq : ∀ i ∈ items, i.chars = ['"', '"'] → i.before ++ i.chars ≠ cs) :
    ∃ toks last, tokens (utf8 cs) = .ret (toks ++ [last]) ∧ SameTokens toks items ∧
      toks.map (·.col) = items.map (fun i => ((columnAfter i.before : Nat) : Int)) := by
  obtain ⟨toks, last, h1, h2, -, -, h3⟩ := run_new cs h items rest hl hf
  exact ⟨toks, last, h1, h2, h3 hcr hs hq⟩

/-- A text over three lines with a non-ASCII comment to which the theorems apply. -/
example : ∃ items, '\r' ∉ c!"{ #é\n\n  a}" ∧ items.map (fun i => (lineAfter i.before, columnAfter i.before)) =
      [(1, 1), (3, 3), (3, 4)] ∧
    (∀ i ∈ items, ∀ c ∈ i.chars, c ≠ '\n') ∧
    Lex GoBlock [] c!"{ #é\n\n  a}" items [] := by
  refine ⟨[⟨⟨.punctuator, ['{']⟩, [], ['{']⟩, ⟨⟨.name, ['a']⟩, c!"{ #é\n\n  ", ['a']⟩,
    ⟨⟨.punctuator, ['}']⟩, c!"{ #é\n\n  a", ['}']⟩], by decide, by decide, by decide, ?_⟩
  exact .token (lx := ['{']) (.punct _ _ (by decide)) <| .ignore rfl <|
    .comment (body := ['é']) (by decide) (by intro c t e; cases e; rfl) <|
    .ignore rfl <| .ignore rfl <| .ignore rfl <| .ignore rfl <|
    .token (lx := ['a']) (.name 'a' [] _ rfl (by simp) (by intro c t e; cases e; rfl)) <|
    .token (lx := ['}']) (.punct _ _ (by decide)) <| .done _ _

/-- C08 is false in general: after CRLF a line break by LF alone is not counted. -/
theorem C08_refuted : lineAfter c!"\r\n\n" = 3 ∧
    tokens (utf8 c!"\r\n\na") = .ret [⟨.name, b!"a", 2, 3⟩, ⟨.eof, [], 2, 4⟩] := by decide

/-- C08 is false after a block string with CRLF: it counts twice. -/
theorem C08_refuted_block : lineAfter c!"\"\"\"a\r\nb\"\"\"" = 2 ∧
    tokens (utf8 c!"\"\"\"a\r\nb\"\"\"c") =
      .ret [⟨.stringValue, b!"a\n\nb", 1, 1⟩, ⟨.name, b!"c", 3, 11⟩, ⟨.eof, [], 3, 12⟩] := by decide

/-- C09 is false in general: after CRLF columns are one too large ... -/
theorem C09_refuted_crlf : columnAfter c!"\r\n" = 1 ∧
    tokens (utf8 c!"\r\na") = .ret [⟨.name, b!"a", 2, 2⟩, ⟨.eof, [], 2, 3⟩] := by decide

/-- ... after a block string over two lines the column is that of one line ... -/
theorem C09_refuted_block : columnAfter c!"\"\"\"a\nb\"\"\"" = 5 ∧
    tokens (utf8 c!"\"\"\"a\nb\"\"\"c") =
      .ret [⟨.stringValue, b!"a\nb", 1, 1⟩, ⟨.name, b!"c", 2, 10⟩, ⟨.eof, [], 2, 11⟩] := by decide

/-- ... and an empty string at the end of the input is one column off. -/
theorem C09_refuted_empty : columnAfter c!" " = 2 ∧
    tokens (utf8 c!" \"\"") = .ret [⟨.stringValue, [], 1, 1⟩, ⟨.eof, [], 1, 3⟩] := by decide

end GQL
