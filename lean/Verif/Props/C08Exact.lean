/-
C08, C09 The line and column of every token, whatever the line ends.

Spec/GoPos says how the code counts.
-/
import Verif.Props.C08
import Verif.Proofs.LexPos

namespace GQL
open Spec

/-- C08, C09: the line and column of every token of a text without NUL, and of the end of the text, exactly. -/
theorem C08_exact (cs : List Char) (h : '\x00' ∉ cs) (items : List Item) (rest : List Char)
    (hl : Lex GoBlock [] cs items rest) (hf : rest = [] ∨ Stuck GoBlock rest) :
    ∃ toks last, tokens (utf8 cs) = .ret (toks ++ [last]) ∧ SameTokens toks items ∧
      toks.map (fun t => (t.line, t.col)) = (positions cs ⟨1, 0⟩ 0 items).map (fun p => (p.1, (p.2 : Int))) ∧
      (rest = [] → last.kind = .eof ∧ last.line = (endPlace cs ⟨1, 0⟩ 0 items).line ∧
        last.col = (((endPlace cs ⟨1, 0⟩ 0 items).col + 1 : Nat) : Int)) := by
  obtain ⟨i2, r2, toks, last, h1, h2, h3, h4, h5, h6⟩ :=
    tokensF_place (n := (utf8 cs).length + 2) (at_new cs) (noNul_of h) (by have := length_utf8_le cs; omega) []
  obtain ⟨rfl, rfl⟩ := C03_deterministic cs h _ _ _ _ hl hf h1 h2
  exact ⟨toks, last, h3, h4, h5, h6⟩

theorem positions_length (text : List Char) (p : Place) (read : Nat) (items : List Item) :
    (positions text p read items).length = items.length := by
  induction items generalizing p read with
  | nil => rfl
  | cons i is ih => rw [positions, List.length_cons, ih, List.length_cons]

/-- C08, C09: the lines and columns of a text are right exactly when the code's way of counting gives the right ones. -/
theorem C08_right_iff (cs : List Char) (h : '\x00' ∉ cs) (items : List Item) (rest : List Char)
    (hl : Lex GoBlock [] cs items rest) (hf : rest = [] ∨ Stuck GoBlock rest) :
    ∃ toks last, tokens (utf8 cs) = .ret (toks ++ [last]) ∧ SameTokens toks items ∧
      (toks.map (·.line) = items.map (fun i => lineAfter i.before) ↔
        (positions cs ⟨1, 0⟩ 0 items).map (·.1) = items.map (fun i => lineAfter i.before)) ∧
      (toks.map (·.col) = items.map (fun i => ((columnAfter i.before : Nat) : Int)) ↔
        (positions cs ⟨1, 0⟩ 0 items).map (·.2) = items.map (fun i => columnAfter i.before)) := by
  obtain ⟨toks, last, h1, h2, h3, -⟩ := C08_exact cs h items rest hl hf
  refine ⟨toks, last, h1, h2, ?_, ?_⟩
  · have := congrArg (List.map Prod.fst) h3
    simp only [List.map_map] at this
    rw [show toks.map (·.line) = (positions cs ⟨1, 0⟩ 0 items).map (·.1) from this]
  · have := congrArg (List.map Prod.snd) h3
    simp only [List.map_map] at this
    rw [show toks.map (·.col) = (positions cs ⟨1, 0⟩ 0 items).map (fun p => (p.2 : Int)) from this]
    constructor
    · intro he
      have := congrArg (List.map Int.toNat) he
      simp only [List.map_map] at this
      exact this
    · intro he
      have := congrArg (List.map (fun n : Nat => (n : Int))) he
      simp only [List.map_map] at this
      exact this

/-- A text with CRLF, a comment that ends in CR, a block string with CRLF and an empty string at the end, to which the theorems apply;
the right positions beside those of the code. -/
example : ∃ items, Lex GoBlock [] c!"a\r\n\nb#c\rd\"\"\"x\r\ny\"\"\"\n\"\"" items [] ∧
    positions c!"a\r\n\nb#c\rd\"\"\"x\r\ny\"\"\"\n\"\"" ⟨1, 0⟩ 0 items = [(1, 1), (2, 3), (3, 1), (3, 2), (6, 0)] ∧
    items.map (fun i => (lineAfter i.before, columnAfter i.before)) = [(1, 1), (3, 1), (4, 1), (4, 2), (6, 1)] := by
  refine ⟨[⟨⟨.name, ['a']⟩, [], ['a']⟩, ⟨⟨.name, ['b']⟩, c!"a\r\n\n", ['b']⟩, ⟨⟨.name, ['d']⟩, c!"a\r\n\nb#c\r", ['d']⟩,
    ⟨⟨.string, c!"x\n\ny"⟩, c!"a\r\n\nb#c\rd", c!"\"\"\"x\r\ny\"\"\""⟩, ⟨⟨.string, []⟩, c!"a\r\n\nb#c\rd\"\"\"x\r\ny\"\"\"\n", c!"\"\""⟩], ?_, by decide, by decide⟩
  refine .token (lx := ['a']) (.name 'a' [] _ rfl (by simp) (by intro c t e; cases e; rfl)) <| .ignore rfl <| .ignore rfl <| .ignore rfl <|
    .token (lx := ['b']) (.name 'b' [] _ rfl (by simp) (by intro c t e; cases e; rfl)) <|
    .comment (body := ['c']) (by decide) (by intro c t e; cases e; rfl) <| .ignore rfl <|
    .token (lx := ['d']) (.name 'd' [] _ rfl (by simp) (by intro c t e; cases e; rfl)) <|
    .token (lx := c!"\"\"\"x\r\ny\"\"\"") (.block (s := c!"x\r\ny\"\"\"\n\"\"") ⟨c!"x\n\ny", ?_, by decide⟩) <| .ignore rfl <|
    .token (lx := c!"\"\"") (.string (.close _) (by intro _ c t e; cases e)) <| .done _ _
  refine .char 'x' (by decide) (by decide) (by decide) (by decide) ?_
  refine .cr (s := c!"\ny\"\"\"\n\"\"") (v := c!"\ny") (rest := c!"\n\"\"") ?_
  exact .char '\n' (by decide) (by decide) (by decide) (by decide) <| .char 'y' (by decide) (by decide) (by decide) (by decide) <| .close _

end GQL
