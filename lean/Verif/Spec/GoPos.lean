/-
How the Go lexer counts lines and columns.  It counts right between tokens when lines end in LF, and differs otherwise: once a
CR has been read, the LFs up to the next token or comment are taken for second halves of CRLFs and count as columns; inside a block
string lines are counted after CRs have been rewritten, and columns are not started again; an empty string at the very end is one
column short.
-/
import Verif.Spec.GoBlock

namespace GQL.Spec

/-- Where the reader is: the line, from 1, and the number of characters read on it. -/
structure Place where
  line : Nat
  col : Nat
  deriving DecidableEq, Repr

/-- One character further. -/
def Place.next (p : Place) : Place := ⟨p.line, p.col + 1⟩

/-- At the beginning of the next line. -/
def Place.newLine (p : Place) : Place := ⟨p.line + 1, 0⟩

/-- What the reader remembers between tokens. -/
inductive Gap where
  /-- No CR since the last token or comment. -/
  | plain
  /-- A CR since the last token or comment. -/
  | afterCR
  /-- In a comment. -/
  | comment
  /-- Right after a CR at the end of a comment. -/
  | commentCR
  deriving DecidableEq, Repr

/-- One character between tokens, neither in a comment nor right after one; `m` is how to go on. -/
def ignoreStep (m : Gap) (p : Place) (c : Char) : Gap × Place :=
  if c = '\r' then (.afterCR, p.newLine)
  else if c = '\n' then (m, if m = .plain then p.newLine else p.next)
  else if c = '#' then (.comment, p.next)
  else (m, p.next)

/-- One character between tokens. -/
def gapStep : Gap × Place → Char → Gap × Place
  | (.plain, p), c => ignoreStep .plain p c
  | (.afterCR, p), c => ignoreStep .afterCR p c
  | (.comment, p), c =>
    if c = '\r' then (.commentCR, p.newLine) else if c = '\n' then (.plain, p.newLine) else (.comment, p.next)
  | (.commentCR, p), c => if c = '\n' then (.plain, p) else ignoreStep .plain p c

/-- The place after the text between two tokens. -/
def Place.skip (p : Place) (gap : List Char) : Place := (gap.foldl gapStep (.plain, p)).2

/-- The line breaks counted in the inside of a block string (with the quotes that close it). -/
def goBreaks : List Char → Nat
  | [] => 0
  | '\\' :: '"' :: '"' :: '"' :: s => goBreaks s
  | '\\' :: c :: s => (if c = '\n' then 1 else 0) + goBreaks s
  | c :: s => (if c = '\n' ∨ (c = '\r' ∧ crDropped s = false) then 1 else 0) + goBreaks s

/-- The line breaks counted in a token: none, except in block strings. -/
def tokenBreaks : List Char → Nat
  | '"' :: '"' :: '"' :: s => goBreaks s
  | _ => 0

/-- The token is an empty string and nothing follows. -/
def emptyAtEnd (text : List Char) (i : Item) : Nat := if i.chars = ['"', '"'] ∧ i.before ++ i.chars = text then 1 else 0

/-- The place where a token begins; `p` is the place after `read` characters, where the token before it ends. -/
def Place.begin (p : Place) (read : Nat) (i : Item) : Place := p.skip (i.before.drop read)

/-- The place where a token ends. -/
def Place.finish (text : List Char) (p : Place) (read : Nat) (i : Item) : Place :=
  ⟨(p.begin read i).line + tokenBreaks i.chars, (p.begin read i).col + i.chars.length - emptyAtEnd text i⟩

/-- The line and column of every token. -/
def positions (text : List Char) (p : Place) (read : Nat) : List Item → List (Nat × Nat)
  | [] => []
  | i :: is => ((p.begin read i).line, (p.begin read i).col + 1 - emptyAtEnd text i) ::
      positions text (p.finish text read i) (i.before.length + i.chars.length) is

/-- The place where the text ends. -/
def endPlace (text : List Char) (p : Place) (read : Nat) : List Item → Place
  | [] => p.skip (text.drop read)
  | i :: is => endPlace text (p.finish text read i) (i.before.length + i.chars.length) is

end GQL.Spec
