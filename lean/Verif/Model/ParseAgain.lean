/-
Model of a `Parser` whose `Parse` is called more than once (language/parser.go:13-27).

A `Parser` has a lexer and the current token; `Parse` begins by scanning a token (30), so that only the state of the lexer counts.
-/
import Verif.Model.Parser

namespace GQL

/-- The lexer after `n` calls of `Scan`. -/
def scanTimes : Nat → Lexer → Out Lexer
  | 0, l => .ret l
  | n+1, l =>
    match scan l with
    | .ret (_, l') => scanTimes n l'
    | .panic => .panic
    | .oof => .oof

section
variable (pf : Bytes → Option Nat)

/-- A call of `Parse` (language/parser.go:27-88) with the lexer in the state `l`: the result, and the state of the lexer afterwards.  The code asks
for one token after the other and keeps one token in advance (`p.token`): when it has consumed `k` tokens it has called `Scan` `k + 1` times.
Simplification: the tokens are listed first (as in `parse`), and the state afterwards is computed from the number of those that are left.  The state after a
panic is left out. -/
def parseCall (l : Lexer) : Out (ParseOut × Lexer) :=
  match tokensF (l.input.length + 2) l with
  | .panic => .panic
  | .oof => .oof
  | .ret ts =>
    match parseDefs pf (ts.length + 1) ts with
    | .ok defs rest => (scanTimes (ts.length - rest.length + 1) l).bind fun l' => .ret (.ok (mkDocument defs), l')
    | .err e rest => (scanTimes (ts.length - rest.length + 1) l).bind fun l' => .ret (.err e, l')
    | .panic => .panic
    | .oof => .oof

/-- The results of `n` calls, one after the other, and the state then; a panic ends it all. -/
def parseCalls : Nat → Lexer → Out (List ParseOut × Lexer)
  | 0, l => .ret ([], l)
  | n+1, l => (parseCall pf l).bind fun a => (parseCalls n a.2).bind fun b => .ret (a.1 :: b.1, b.2)

end

end GQL
