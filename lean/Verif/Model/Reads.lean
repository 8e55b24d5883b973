/-
How often the lexer reads from its input (language/lexer.go).

Model/Lexer says what `Scan` returns; here every call of `read` (language/lexer.go:907-917) and of `readUnicode` (924-933), the only
functions that look at the input one character at a time, is counted.  The functions follow those of Model/Lexer one by one;
Proofs/Reads shows that they return the same.
Not counted: `blockStringLiteral` and the copying of literals, which go through a literal a fixed number of times, and the
slice expressions of `btos`, which copy nothing.
-/
import Verif.Model.Lexer

namespace GQL

/-- `Lexer` (language/lexer.go:53-61) and the number of calls of `read` and `readUnicode` so far. -/
structure CLexer where
  l : Lexer
  n : Nat
  deriving DecidableEq, Repr

/-- `NewLexer` (language/lexer.go:64-70): nothing has been read yet. -/
def newCLexer (input : Bytes) : CLexer := ⟨newLexer input, 0⟩

/-- `read` (language/lexer.go:907-917). -/
def CLexer.read (c : CLexer) : Nat × Nat × CLexer := (c.l.read.1, c.l.read.2.1, ⟨c.l.read.2.2, c.n + 1⟩)

/-- `readUnicode` (language/lexer.go:924-933). -/
def CLexer.readUnicode (c : CLexer) : Nat × Nat × CLexer := (c.l.readUnicode.1, c.l.readUnicode.2.1, ⟨c.l.readUnicode.2.2, c.n + 1⟩)

/-- `r, w := l.read(); if r >= utf8.RuneSelf { r, w = l.readUnicode() }` (e.g. language/lexer.go:93-96). -/
def CLexer.rd (c : CLexer) : Nat × Nat × CLexer :=
  let (r, w, c') := c.read
  if r ≥ 0x80 then c'.readUnicode else (r, w, c')

/-- `unread` (language/lexer.go:938-944). -/
def CLexer.unread (c : CLexer) (w : Nat) : CLexer := ⟨c.l.unread w, c.n⟩

/-- A new line begins. -/
def CLexer.newLine (c : CLexer) : CLexer := ⟨{ c.l with line := c.l.line + 1, lpos := 0 }, c.n⟩

/-- `readNextSignificant` (language/lexer.go:867-902). -/
def readNextSignificantC : Nat → Bool → CLexer → Out ((Nat × Nat) × CLexer)
  | 0, _, _ => .oof
  | k+1, wasCR, c =>
    let (r, w, c1) := c.rd
    if r = 13 then readNextSignificantC k true c1.newLine
    else if r = 10 then
      if wasCR then readNextSignificantC k wasCR c1
      else readNextSignificantC k wasCR c1.newLine
    else if r = 9 ∨ r = 32 ∨ r = 44 ∨ r = 0xFEFF then readNextSignificantC k wasCR c1
    else .ret ((r, w), c1)

/-- The loop of `scanName` (language/lexer.go:652-667). -/
def scanNameLoopC : Nat → CLexer → Out CLexer
  | 0, _ => .oof
  | k+1, c =>
    let (r, w, c1) := c.rd
    if isNameCont r then scanNameLoopC k c1
    else if r = 0 then .ret c1
    else .ret (c1.unread w)

/-- `scanName` (language/lexer.go:647-675). -/
def scanNameC (c : CLexer) : Out (Token × CLexer) :=
  match scanNameLoopC c.l.fuel c with
  | .panic => .panic
  | .oof => .oof
  | .ret c' =>
    match slice c'.l.input (c.l.pos - 1) c'.l.pos with
    | none => .panic
    | some lit => .ret (⟨.name, lit, c'.l.line, c.l.lpos⟩, c')

/-- `scanPunctuator` (language/lexer.go:678-717). -/
def scanPunctuatorC (c : CLexer) (r w : Nat) : Out (Token × CLexer) :=
  if r = 46 then
    let (r2, _, c2) := c.rd
    let (r3, _, c3) := c2.rd
    if r2 ≠ 46 ∨ r3 ≠ 46 then
      .ret (⟨.illegal, msgBadPunct r r2 r3, c3.l.line, c.l.lpos⟩, c3)
    else .ret (⟨.punctuator, b!"...", c3.l.line, c.l.lpos⟩, c3)
  else
    match slice c.l.input (c.l.pos - w) c.l.pos with
    | none => .panic
    | some lit => .ret (⟨.punctuator, lit, c.l.line, c.l.lpos⟩, c)

/-- The loop of `readDigits` (language/lexer.go:844-860). -/
def readDigitsLoopC : Nat → CLexer → Out ((Nat × Nat) × CLexer)
  | 0, _ => .oof
  | k+1, c =>
    let (r, w, c1) := c.rd
    if isDigit r then readDigitsLoopC k c1 else .ret ((r, w), c1)

/-- `readDigits` (language/lexer.go:837-861). -/
def readDigitsC (c : CLexer) (r : Nat) : Out (Except Bytes (Nat × Nat) × CLexer) :=
  if isDigit r then
    match readDigitsLoopC c.l.fuel c with
    | .ret (x, c') => .ret (.ok x, c')
    | .panic => .panic
    | .oof => .oof
  else .ret (.error (msgNotDigit r), c)

/-- End of `scanNumber` (language/lexer.go:818-833). -/
def numberEndC (c0 : CLexer) (isFloat : Bool) (r w : Nat) (c : CLexer) : Out (Token × CLexer) :=
  let c' := if r ≠ 0 then c.unread w else c
  match slice c'.l.input (c0.l.pos - 1) c'.l.pos with
  | none => .panic
  | some lit => .ret (⟨if isFloat then .floatValue else .intValue, lit, c'.l.line, c0.l.lpos⟩, c')

/-- The optional sign reads of `scanNumber` (language/lexer.go:730-735 and 799-804). -/
def readIfC (b : Bool) (r : Nat) (c : CLexer) : Nat × CLexer :=
  if b then (c.rd.1, c.rd.2.2) else (r, c)

/-- Exponent part of `scanNumber` (language/lexer.go:789-816). -/
def numberExpC (c0 : CLexer) (isFloat : Bool) (r w : Nat) (c : CLexer) : Out (Token × CLexer) :=
  if r = 101 ∨ r = 69 then
    let (r1, _, c1) := c.rd
    let s := readIfC (r1 = 43 ∨ r1 = 45) r1 c1
    match readDigitsC s.2 s.1 with
    | .ret (.ok (r3, w3), c3) => numberEndC c0 true r3 w3 c3
    | .ret (.error e, c3) => .ret (⟨.illegal, e, c3.l.line, c0.l.lpos⟩, c3)
    | .panic => .panic
    | .oof => .oof
  else numberEndC c0 isFloat r w c

/-- Fraction part of `scanNumber` (language/lexer.go:768-787). -/
def numberFracC (c0 : CLexer) (r w : Nat) (c : CLexer) : Out (Token × CLexer) :=
  if r = 46 then
    let (r1, _, c1) := c.rd
    match readDigitsC c1 r1 with
    | .ret (.ok (r2, w2), c2) => numberExpC c0 true r2 w2 c2
    | .ret (.error e, c2) => .ret (⟨.illegal, e, c2.l.line, c0.l.lpos⟩, c2)
    | .panic => .panic
    | .oof => .oof
  else numberExpC c0 false r w c

/-- `scanNumber` (language/lexer.go:720-834). -/
def scanNumberC (c0 : CLexer) (r0 : Nat) : Out (Token × CLexer) :=
  let s := readIfC (r0 = 45) r0 c0
  if s.1 = 48 then
    let (r, w, c2) := s.2.rd
    if isDigit r then
      .ret (⟨.illegal, msgDigitAfterZero r, c2.l.line, c0.l.lpos⟩, c2)
    else numberFracC c0 r w c2
  else
    match readDigitsC s.2 s.1 with
    | .ret (.ok (r, w), c2) => numberFracC c0 r w c2
    | .ret (.error e, c2) => .ret (⟨.illegal, e, c2.l.line, c0.l.lpos⟩, c2)
    | .panic => .panic
    | .oof => .oof

/-- The loop of `scanComment` (language/lexer.go:594-644). -/
def skipCommentC : Nat → Bool → CLexer → Out CLexer
  | 0, _, _ => .oof
  | k+1, wasCR, c =>
    let (r, w, c1) := c.rd
    if r = 0 then .ret c1
    else if wasCR && r = 10 then .ret ⟨{ c1.l with lpos := 0 }, c1.n⟩
    else if wasCR && r ≠ 10 then .ret (c1.unread w)
    else if r = 13 then skipCommentC k true c1.newLine
    else if r = 10 then .ret c1.newLine
    else skipCommentC k wasCR c1

/-- `escapedChar` (language/lexer.go:483-536). -/
def escapedCharC (c : CLexer) : Except Bytes Nat × CLexer :=
  let (r, _, c1) := c.rd
  match simpleEscape r with
  | some x => (.ok x, c1)
  | none =>
    if r = 117 then
      let (x1, _, c2) := c1.rd
      let (x2, _, c3) := c2.rd
      let (x3, _, c4) := c3.rd
      let (x4, _, c5) := c4.rd
      match unicodeCodePointToRune x1 x2 x3 x4 with
      | some x => (.ok x, c5)
      | none => (.error (msgBadUnicode x1 x2 x3 x4), c5)
    else (.error (msgBadEscape r), c1)

/-- First loop of `scanString` (language/lexer.go:141-204). -/
def stringPass1C : Nat → Bool → CLexer → Out (Except Nat Bool × CLexer)
  | 0, _, _ => .oof
  | k+1, esc, c =>
    let (r, _, c1) := c.rd
    if r = 34 then .ret (.ok esc, c1)
    else if r < 32 ∧ r ≠ 9 then .ret (.error r, c1)
    else if r = 92 then
      let (r2, _, c2) := c1.rd
      if r2 = 117 then
        let c3 := c2.rd.2.2
        let c4 := c3.rd.2.2
        let c5 := c4.rd.2.2
        let c6 := c5.rd.2.2
        stringPass1C k true c6
      else stringPass1C k true c2
    else stringPass1C k esc c1

/-- Second loop of `scanString` (language/lexer.go:223-259). -/
def stringPass2C (col line : Nat) : Nat → Bytes → CLexer → Out (Token × CLexer)
  | 0, _, _ => .oof
  | k+1, acc, c =>
    let (r, _, c1) := c.rd
    if r = 34 ∨ r = 0 then .ret (⟨.stringValue, acc, line, col⟩, c1)
    else if r = 92 then
      match escapedCharC c1 with
      | (.error e, c2) => .ret (⟨.illegal, e, line, col⟩, c2)
      | (.ok x, c2) => stringPass2C col line k (acc ++ encodeRune x) c2
    else stringPass2C col line k (acc ++ encodeRune r) c1

/-- `scanString` (language/lexer.go:130-260): the second loop starts where the first one started (212-214), what has been read remains read. -/
def scanStringC (c : CLexer) : Out (Token × CLexer) :=
  match stringPass1C c.l.fuel false c with
  | .panic => .panic
  | .oof => .oof
  | .ret (.error r, c') => .ret (⟨.illegal, msgBadStringChar r, c.l.line, c.l.lpos⟩, c')
  | .ret (.ok esc, c') =>
    if esc then stringPass2C c.l.lpos c.l.line c.l.fuel [] ⟨c.l, c'.n⟩
    else
      match slice c'.l.input c.l.pos (c'.l.pos - 1) with
      | none => .panic
      | some lit => .ret (⟨.stringValue, lit, c.l.line, c.l.lpos⟩, c')

/-- `isTripQuotes` (language/lexer.go:458-480). -/
def isTripQuotesC (c : CLexer) : Bool × CLexer :=
  let (r1, w1, c1) := c.rd
  let (r2, w2, c2) := c1.rd
  if r1 = 34 ∧ r2 = 34 then (true, c2)
  else
    let c3 := if r1 ≠ 0 then c2.unread w2 else c2
    let c4 := if r2 ≠ 0 then c3.unread w1 else c3
    (false, c4)

/-- First loop of `scanBlockString` (language/lexer.go:278-321). -/
def blockPass1C : Nat → Bool → Bool → CLexer → Out (Except Bytes (Bool × Bool) × CLexer)
  | 0, _, _, _ => .oof
  | k+1, hasCR, hasEsc, c =>
    let (r, _, c1) := c.rd
    if r = 92 then
      let (r2, _, c2) := c1.rd
      if r2 = 34 then
        let t := isTripQuotesC c2
        blockPass1C k hasCR (hasEsc || t.1) t.2
      else blockPass1C k hasCR hasEsc c2
    else if r = 13 then blockPass1C k true hasEsc c1
    else if r = 0 then .ret (.error msgEofInBlock, c1)
    else if r < 32 ∧ r ≠ 9 ∧ r ≠ 10 ∧ r ≠ 13 then .ret (.error (msgBadBlockChar r), c1)
    else if r = 34 then
      let t := isTripQuotesC c1
      if t.1 then .ret (.ok (hasCR, hasEsc), t.2) else blockPass1C k hasCR hasEsc t.2
    else blockPass1C k hasCR hasEsc c1

/-- Second loop of `scanBlockString` (language/lexer.go:338-386). -/
def blockPass2C : Nat → Bytes → CLexer → Out (Except Bytes Bytes × CLexer)
  | 0, _, _ => .oof
  | k+1, acc, c =>
    let (r, _, c1) := c.rd
    if r = 10 then blockPass2C k (acc ++ encodeRune r) c1
    else if r = 13 then
      match c1.l.input[c1.l.pos + 1]? with
      | none => .panic
      | some b => blockPass2C k (if b ≠ 10 then acc ++ encodeRune 10 else acc) c1
    else if r = 92 then
      let (r2, _, c2) := c1.rd
      if r2 = 34 then
        let t := isTripQuotesC c2
        if t.1 then blockPass2C k (acc ++ b!"\"\"\"") t.2
        else blockPass2C k (acc ++ encodeRune 92 ++ encodeRune r2) t.2
      else blockPass2C k (acc ++ encodeRune 92 ++ encodeRune r2) c2
    else if r = 0 then .ret (.error msgEofInBlock, c1)
    else if r = 34 then
      let t := isTripQuotesC c1
      if t.1 then .ret (.ok acc, t.2)
      else blockPass2C k (acc ++ encodeRune r) t.2
    else if r < 32 ∧ r ≠ 9 ∧ r ≠ 10 ∧ r ≠ 13 then .ret (.error (msgBadBlockChar r), c1)
    else blockPass2C k (acc ++ encodeRune r) c1

/-- `scanBlockString` (language/lexer.go:263-394). -/
def scanBlockStringC (c : CLexer) : Out (Token × CLexer) :=
  let col : Int := (c.l.lpos : Int) - 2
  match blockPass1C c.l.fuel false false c with
  | .panic => .panic
  | .oof => .oof
  | .ret (.error e, c') => .ret (⟨.illegal, e, c.l.line, col⟩, c')
  | .ret (.ok (hasCR, hasEsc), c') =>
    if !hasCR && !hasEsc then
      match slice c'.l.input c.l.pos (c'.l.pos - 3) with
      | none => .panic
      | some raw =>
        let b := blockStringLiteral raw
        .ret (⟨.stringValue, b.1, c.l.line, col⟩, ⟨{ c'.l with line := c'.l.line + (b.2 - 1) }, c'.n⟩)
    else
      match blockPass2C c.l.fuel [] ⟨c.l, c'.n⟩ with
      | .panic => .panic
      | .oof => .oof
      | .ret (.error e, c2) => .ret (⟨.illegal, e, c.l.line, col⟩, c2)
      | .ret (.ok raw, c2) =>
        let b := blockStringLiteral raw
        .ret (⟨.stringValue, b.1, c.l.line, col⟩, ⟨{ c2.l with line := c2.l.line + (b.2 - 1) }, c2.n⟩)

/-- `Scan` (language/lexer.go:74-127). -/
def scanFC : Nat → CLexer → Out (Token × CLexer)
  | 0, _ => .oof
  | k+1, c =>
    match readNextSignificantC c.l.fuel false c with
    | .panic => .panic
    | .oof => .oof
    | .ret ((r, w), c0) =>
      if isNameStart r then scanNameC c0
      else if isPunct r then scanPunctuatorC c0 r w
      else if isDigit r ∨ r = 45 then scanNumberC c0 r
      else if r = 35 then
        match skipCommentC c0.l.fuel false c0 with
        | .panic => .panic
        | .oof => .oof
        | .ret c1 => scanFC k c1
      else if r = 34 then
        let (r1, w1, c1) := c0.rd
        let (r2, w2, c2) := c1.rd
        if r1 = 34 ∧ r2 = 34 then scanBlockStringC c2
        else scanStringC ((c2.unread w2).unread w1)
      else if r = 0 then .ret (⟨.eof, [], c0.l.line, c0.l.lpos + 1⟩, c0)
      else .ret (⟨.illegal, encodeRune r, c0.l.line, c0.l.lpos⟩, c0)

/-- `Scan` with enough fuel. -/
def scanC (c : CLexer) : Out (Token × CLexer) := scanFC c.l.fuel c

/-- Calls of `Scan` until the first EOF or Illegal token, inclusive: the tokens and the number of reads. -/
def tokensFC : Nat → CLexer → Out (List Token × Nat)
  | 0, _ => .oof
  | k+1, c =>
    match scanC c with
    | .panic => .panic
    | .oof => .oof
    | .ret (t, c') =>
      if t.kind = .eof ∨ t.kind = .illegal then .ret ([t], c'.n)
      else match tokensFC k c' with
        | .panic => .panic
        | .oof => .oof
        | .ret (ts, n) => .ret (t :: ts, n)

/-- All tokens of an input up to the first EOF or Illegal token, and the number of reads it takes to get them. -/
def tokensC (input : Bytes) : Out (List Token × Nat) := tokensFC (input.length + 2) (newCLexer input)

/-- `m` calls of `Scan`, whatever they return. -/
def scansC : Nat → CLexer → Out (List Token × CLexer)
  | 0, c => .ret ([], c)
  | m+1, c =>
    match scanC c with
    | .panic => .panic
    | .oof => .oof
    | .ret (t, c') =>
      match scansC m c' with
      | .panic => .panic
      | .oof => .oof
      | .ret (ts, c2) => .ret (t :: ts, c2)

end GQL
