/-
The call stack.  A Go program whose stack overflows dies, and cannot be made to recover, so it matters how deep the calls of the
lexer and of the parser are nested.  The functions that call themselves are `Scan` (through `scanComment`), `parseValue`,
`parseType` and `parseSelectionSet`; in the model each of them takes one from its fuel when it calls itself, and all others
pass it on, so that the fuel is the number of calls of these functions that may be open at the same time.  (The loops
of the model have fuel of their own.)
-/
import Verif.Model.Parser

namespace GQL

/-- `tokensF` (calls of `Scan`, lexer.go:74-127) with room for `sc` calls of `Scan` inside one another (lexer.go:606, 615, 623, 641). -/
def tokensWithinF (sc : Nat) : Nat → Lexer → Out (List Token)
  | 0, _ => .oof
  | n+1, l =>
    match scanF sc l with
    | .panic => .panic
    | .oof => .oof
    | .ret (t, l') =>
      if t.kind = .eof ∨ t.kind = .illegal then .ret [t]
      else match tokensWithinF sc n l' with
        | .panic => .panic
        | .oof => .oof
        | .ret ts => .ret (t :: ts)

/-- The tokens of an input, with room for `sc` calls of `Scan` inside one another (lexer.go:74-127). -/
def tokensWithin (sc : Nat) (input : Bytes) : Out (List Token) := tokensWithinF sc (input.length + 2) (newLexer input)

/-- `NewParser(input).Parse()` (parser.go:27-88), with room for `sc` calls of `Scan` inside one another, and for `pc` calls
of `parseValue` (parser.go:655, 681), `parseType` (707) and `parseSelectionSet` (475, 522) inside one another.  `oof` is running out of stack. -/
def parseWithin (pf : Bytes → Option Nat) (sc pc : Nat) (input : Bytes) : ParseOut :=
  match tokensWithin sc input with
  | .panic => .panic
  | .oof => .oof
  | .ret ts =>
    match parseDefs pf pc ts with
    | .ok defs _ => .ok (mkDocument defs)
    | .err e _ => .err e
    | .panic => .panic
    | .oof => .oof

end GQL
