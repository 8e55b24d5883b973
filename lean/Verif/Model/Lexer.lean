/-
Model of language/lexer.go and language/token.go.

Integers that hold positions, widths, line numbers and runes are naturals (no 64-bit overflow);
a rune is a natural, `eof` is 0 exactly as in the code.  Columns are integers because the code
subtracts 2 from a rune position.  Loops take fuel; `Props/C01` proves that the
fuel supplied here is always enough.  Index and slice expressions that Go would reject at run time
give the explicit outcome `Out.panic`.
Simplifications: the byte counters `bc` (capacity hints of `make`) are dropped;
`%q` in the text of Illegal tokens escapes as Go does, except that every character from U+0080 on
counts as printable.
-/
import Verif.Model.Utf8

namespace GQL

/-- `TokenKind` (language/token.go:4-22); the kinds after StringValue are never produced. -/
inductive TokenKind where
  | illegal | eof | punctuator | name | intValue | floatValue | stringValue
  deriving DecidableEq, Repr

/-- `Token` (language/token.go:42-47). -/
structure Token where
  kind : TokenKind
  lit : Bytes
  line : Nat
  col : Int
  deriving DecidableEq, Repr

/-- `Lexer` (language/lexer.go:53-61); `inputLen` is `input.length`. -/
structure Lexer where
  input : Bytes
  pos : Nat
  lpos : Nat
  line : Nat
  deriving DecidableEq, Repr

/-- `NewLexer` (language/lexer.go:64-70). -/
def newLexer (input : Bytes) : Lexer := ⟨input, 0, 0, 1⟩

/-- `read` (language/lexer.go:907-917). -/
def Lexer.read (l : Lexer) : Nat × Nat × Lexer :=
  match l.input[l.pos]? with
  | none => (0, 0, l)
  | some b => (b, 1, { l with pos := l.pos + 1, lpos := l.lpos + 1 })

/-- `readUnicode` (language/lexer.go:924-933). -/
def Lexer.readUnicode (l : Lexer) : Nat × Nat × Lexer :=
  if l.pos ≥ l.input.length then (0, 0, l)
  else
    let d := decodeRune (l.input.drop (l.pos - 1))
    (d.1, d.2, { l with pos := l.pos + d.2 - 1 })

/-- The pattern `r, w := l.read(); if r >= utf8.RuneSelf { r, w = l.readUnicode() }` used at every
read in language/lexer.go (e.g. lines 93-96). -/
def Lexer.rd (l : Lexer) : Nat × Nat × Lexer :=
  let (r, w, l') := l.read
  if r ≥ 0x80 then l'.readUnicode else (r, w, l')

/-- `unread` (language/lexer.go:938-944). -/
def Lexer.unread (l : Lexer) (w : Nat) : Lexer := { l with pos := l.pos - w, lpos := l.lpos - 1 }

/-- Fuel supplied to every loop: one more than the number of unread bytes. -/
def Lexer.fuel (l : Lexer) : Nat := l.input.length - l.pos + 1

/-- The loop of `readNextSignificant` (language/lexer.go:867-902).  `wasCR` is never reset,
exactly as in the code.  (`r = er` only makes the first loop test true; afterwards
the loop is re-entered only with `r` an ignored character, never `eof`.) -/
def readNextSignificant : Nat → Bool → Lexer → Out (Nat × Nat × Lexer)
  | 0, _, _ => .oof
  | n+1, wasCR, l =>
    let (r, w, l1) := l.rd
    if r = 13 then readNextSignificant n true { l1 with line := l1.line + 1, lpos := 0 }
    else if r = 10 then
      if wasCR then readNextSignificant n wasCR l1
      else readNextSignificant n wasCR { l1 with line := l1.line + 1, lpos := 0 }
    else if r = 9 ∨ r = 32 ∨ r = 44 ∨ r = 0xFEFF then readNextSignificant n wasCR l1
    else .ret (r, w, l1)

/-- `r >= 'a' && r <= 'z' || r >= 'A' && r <= 'Z' || r == '_'` (language/lexer.go:78). -/
def isNameStart (r : Nat) : Bool :=
  (97 ≤ r && r ≤ 122) || (65 ≤ r && r ≤ 90) || r == 95

/-- `r >= '0' && r <= '9'`. -/
def isDigit (r : Nat) : Bool := 48 ≤ r && r ≤ 57

/-- Characters continuing a name (language/lexer.go:659). -/
def isNameCont (r : Nat) : Bool := isDigit r || isNameStart r

/-- The punctuator characters (language/lexer.go:83). -/
def isPunct (r : Nat) : Bool :=
  r == 123 || r == 125 || r == 91 || r == 93 || r == 33 || r == 36 || r == 40 || r == 41 ||
  r == 58 || r == 64 || r == 38 || r == 46 || r == 61 || r == 124

/-- The loop of `scanName` (language/lexer.go:652-667); returns the lexer after the name. -/
def scanNameLoop : Nat → Lexer → Out Lexer
  | 0, _ => .oof
  | n+1, l =>
    let (r, w, l1) := l.rd
    if isNameCont r then scanNameLoop n l1
    else if r = 0 then .ret l1
    else .ret (l1.unread w)

/-- `scanName` (language/lexer.go:647-675). -/
def scanName (l : Lexer) : Out (Token × Lexer) :=
  match scanNameLoop l.fuel l with
  | .panic => .panic
  | .oof => .oof
  | .ret l' =>
    match slice l'.input (l.pos - 1) l'.pos with
    | none => .panic
    | some lit => .ret (⟨.name, lit, l'.line, l.lpos⟩, l')

/-- A lower-case hexadecimal digit. -/
def lowerHex (n : Nat) : Nat := if n < 10 then 48 + n else 87 + n

/-- `strconv.appendEscapedRune` (Go standard library) within the quote character `q`.
Simplification: characters from U+0080 on are taken to be printable (Go writes the unprintable ones
as `\u` escapes, by its Unicode tables). -/
def goEscapeRune (q r : Nat) : Bytes :=
  if r = q ∨ r = 92 then [92, r]
  else if 32 ≤ r ∧ r ≠ 127 then encodeRune r
  else if r = 7 then b!"\\a"
  else if r = 8 then b!"\\b"
  else if r = 12 then b!"\\f"
  else if r = 10 then b!"\\n"
  else if r = 13 then b!"\\r"
  else if r = 9 then b!"\\t"
  else if r = 11 then b!"\\v"
  else b!"\\x" ++ [lowerHex (r / 16), lowerHex (r % 16)]

/-- `%q` of a rune (`strconv.AppendQuoteRune`, Go standard library). -/
def quoteRune (r : Nat) : Bytes := b!"'" ++ goEscapeRune 39 r ++ b!"'"

/-- Illegal token text, language/lexer.go:368. -/
def msgEofInBlock : Bytes := b!"unexpected eof, probably unclosed block string"
/-- Illegal token text, language/lexer.go:313 and 378. -/
def msgBadBlockChar (r : Nat) : Bytes := b!"invalid character within block string: " ++ quoteRune r
/-- Illegal token text, language/lexer.go:157. -/
def msgBadStringChar (r : Nat) : Bytes := b!"invalid character within string: " ++ quoteRune r
/-- Illegal token text, language/lexer.go:748. -/
def msgDigitAfterZero (r : Nat) : Bytes := b!"invalid number, unexpected digit after 0: " ++ quoteRune r
/-- Error text, language/lexer.go:839. -/
def msgNotDigit (r : Nat) : Bytes := b!"invalid number, expected digit but got: " ++ quoteRune r
/-- Illegal token text, language/lexer.go:697. -/
def msgBadPunct (r r2 r3 : Nat) : Bytes :=
  b!"invalid punctuator, expected \"...\" but got: \"" ++ goEscapeRune 34 r ++ goEscapeRune 34 r2
    ++ goEscapeRune 34 r3 ++ b!"\""
/-- Error text, language/lexer.go:530. -/
def msgBadUnicode (a b c d : Nat) : Bytes :=
  b!"invalid character escape sequence: \\u" ++ encodeRune a ++ encodeRune b ++ encodeRune c
    ++ encodeRune d
/-- Error text, language/lexer.go:535. -/
def msgBadEscape (r : Nat) : Bytes := b!"invalid character escape sequence: \\" ++ encodeRune r

/-- `scanPunctuator` (language/lexer.go:678-717). -/
def scanPunctuator (l : Lexer) (r w : Nat) : Out (Token × Lexer) :=
  if r = 46 then
    let (r2, _, l2) := l.rd
    let (r3, _, l3) := l2.rd
    if r2 ≠ 46 ∨ r3 ≠ 46 then
      .ret (⟨.illegal, msgBadPunct r r2 r3, l3.line, l.lpos⟩, l3)
    else .ret (⟨.punctuator, b!"...", l3.line, l.lpos⟩, l3)
  else
    match slice l.input (l.pos - w) l.pos with
    | none => .panic
    | some lit => .ret (⟨.punctuator, lit, l.line, l.lpos⟩, l)

/-- The loop of `readDigits` (language/lexer.go:844-860). -/
def readDigitsLoop : Nat → Lexer → Out (Nat × Nat × Lexer)
  | 0, _ => .oof
  | n+1, l =>
    let (r, w, l1) := l.rd
    if isDigit r then readDigitsLoop n l1 else .ret (r, w, l1)

/-- `readDigits` (language/lexer.go:837-861); the error is `Except.error text`. -/
def readDigits (l : Lexer) (r : Nat) : Out (Except Bytes (Nat × Nat × Lexer)) :=
  if isDigit r then
    match readDigitsLoop l.fuel l with
    | .ret x => .ret (.ok x)
    | .panic => .panic
    | .oof => .oof
  else .ret (.error (msgNotDigit r))

/-- End of `scanNumber` (language/lexer.go:818-833). -/
def numberEnd (l0 : Lexer) (isFloat : Bool) (r w : Nat) (l : Lexer) : Out (Token × Lexer) :=
  let l' := if r ≠ 0 then l.unread w else l
  match slice l'.input (l0.pos - 1) l'.pos with
  | none => .panic
  | some lit => .ret (⟨if isFloat then .floatValue else .intValue, lit, l'.line, l0.lpos⟩, l')

/-- Reads one more rune when `c` holds: the optional sign reads of `scanNumber`
(language/lexer.go:730-735 and 799-804). -/
def readIf (c : Bool) (r : Nat) (l : Lexer) : Nat × Lexer :=
  if c then (l.rd.1, l.rd.2.2) else (r, l)

/-- Exponent part of `scanNumber` (language/lexer.go:789-816). -/
def numberExp (l0 : Lexer) (isFloat : Bool) (r w : Nat) (l : Lexer) : Out (Token × Lexer) :=
  if r = 101 ∨ r = 69 then
    let (r1, _, l1) := l.rd
    let s := readIf (r1 = 43 ∨ r1 = 45) r1 l1
    match readDigits s.2 s.1 with
    | .ret (.ok (r3, w3, l3)) => numberEnd l0 true r3 w3 l3
    | .ret (.error e) => .ret (⟨.illegal, e, s.2.line, l0.lpos⟩, s.2)
    | .panic => .panic
    | .oof => .oof
  else numberEnd l0 isFloat r w l

/-- Fraction part of `scanNumber` (language/lexer.go:768-787). -/
def numberFrac (l0 : Lexer) (r w : Nat) (l : Lexer) : Out (Token × Lexer) :=
  if r = 46 then
    let (r1, _, l1) := l.rd
    match readDigits l1 r1 with
    | .ret (.ok (r2, w2, l2)) => numberExp l0 true r2 w2 l2
    | .ret (.error e) => .ret (⟨.illegal, e, l1.line, l0.lpos⟩, l1)
    | .panic => .panic
    | .oof => .oof
  else numberExp l0 false r w l

/-- `scanNumber` (language/lexer.go:720-834). -/
def scanNumber (l0 : Lexer) (r0 : Nat) : Out (Token × Lexer) :=
  let s := readIf (r0 = 45) r0 l0
  if s.1 = 48 then
    let (r, w, l2) := s.2.rd
    if isDigit r then
      .ret (⟨.illegal, msgDigitAfterZero r,
        l2.line, l0.lpos⟩, l2)
    else numberFrac l0 r w l2
  else
    match readDigits s.2 s.1 with
    | .ret (.ok (r, w, l2)) => numberFrac l0 r w l2
    | .ret (.error e) => .ret (⟨.illegal, e, s.2.line, l0.lpos⟩, s.2)
    | .panic => .panic
    | .oof => .oof

/-- The loop of `scanComment` (language/lexer.go:594-644): returns the lexer on which `Scan` is
called again. -/
def skipComment : Nat → Bool → Lexer → Out Lexer
  | 0, _, _ => .oof
  | n+1, wasCR, l =>
    let (r, w, l1) := l.rd
    if r = 0 then .ret l1
    else if wasCR && r = 10 then .ret { l1 with lpos := 0 }
    else if wasCR && r ≠ 10 then .ret (l1.unread w)
    else if r = 13 then skipComment n true { l1 with line := l1.line + 1, lpos := 0 }
    else if r = 10 then .ret { l1 with line := l1.line + 1, lpos := 0 }
    else skipComment n wasCR l1

/-- `hexRuneToInt` (language/lexer.go:581-591); `none` is -1. -/
def hexRuneToInt (r : Nat) : Option Nat :=
  if 48 ≤ r ∧ r ≤ 57 then some (r - 48)
  else if 65 ≤ r ∧ r ≤ 70 then some (r - 55)
  else if 97 ≤ r ∧ r ≤ 102 then some (r - 87)
  else none

/-- `unicodeCodePointToRune` (language/lexer.go:574-577); `none` is a negative rune: a shifted -1
ored with anything is negative. -/
def unicodeCodePointToRune (a b c d : Nat) : Option Nat :=
  match hexRuneToInt a, hexRuneToInt b, hexRuneToInt c, hexRuneToInt d with
  | some a, some b, some c, some d => some ((a <<< 12) ||| (b <<< 8) ||| (c <<< 4) ||| (d <<< 0))
  | _, _, _, _ => none

/-- The one-character escapes of `escapedChar` (language/lexer.go:489-505). -/
def simpleEscape (r : Nat) : Option Nat :=
  if r = 34 then some 34
  else if r = 47 then some 47
  else if r = 92 then some 92
  else if r = 98 then some 8
  else if r = 102 then some 12
  else if r = 110 then some 10
  else if r = 114 then some 13
  else if r = 116 then some 9
  else none

/-- `escapedChar` (language/lexer.go:483-536). -/
def escapedChar (l : Lexer) : Except Bytes Nat × Lexer :=
  let (r, _, l1) := l.rd
  match simpleEscape r with
  | some x => (.ok x, l1)
  | none =>
    if r = 117 then
      let (a, _, l2) := l1.rd
      let (b, _, l3) := l2.rd
      let (c, _, l4) := l3.rd
      let (d, _, l5) := l4.rd
      match unicodeCodePointToRune a b c d with
      | some x => (.ok x, l5)
      | none => (.error (msgBadUnicode a b c d), l5)
    else (.error (msgBadEscape r), l1)

/-- First loop of `scanString` (language/lexer.go:141-204).  `Except.ok (hasEscape, l)` when the
closing quote was found, `Except.error (r, l)` on an invalid character. -/
def stringPass1 : Nat → Bool → Lexer → Out (Except (Nat × Lexer) (Bool × Lexer))
  | 0, _, _ => .oof
  | n+1, esc, l =>
    let (r, _, l1) := l.rd
    if r = 34 then .ret (.ok (esc, l1))
    else if r < 32 ∧ r ≠ 9 then .ret (.error (r, l1))
    else if r = 92 then
      let (r2, _, l2) := l1.rd
      if r2 = 117 then
        let l3 := l2.rd.2.2
        let l4 := l3.rd.2.2
        let l5 := l4.rd.2.2
        let l6 := l5.rd.2.2
        stringPass1 n true l6
      else stringPass1 n true l2
    else stringPass1 n esc l1

/-- Second loop of `scanString` (language/lexer.go:223-259); `acc` is `bs`. -/
def stringPass2 (col line : Nat) : Nat → Bytes → Lexer → Out (Token × Lexer)
  | 0, _, _ => .oof
  | n+1, acc, l =>
    let (r, _, l1) := l.rd
    if r = 34 ∨ r = 0 then .ret (⟨.stringValue, acc, line, col⟩, l1)
    else if r = 92 then
      match escapedChar l1 with
      | (.error e, l2) => .ret (⟨.illegal, e, line, col⟩, l2)
      | (.ok x, l2) => stringPass2 col line n (acc ++ encodeRune x) l2
    else stringPass2 col line n (acc ++ encodeRune r) l1

/-- `scanString` (language/lexer.go:130-260). -/
def scanString (l : Lexer) : Out (Token × Lexer) :=
  match stringPass1 l.fuel false l with
  | .panic => .panic
  | .oof => .oof
  | .ret (.error (r, l')) =>
    .ret (⟨.illegal, msgBadStringChar r, l.line, l.lpos⟩, l')
  | .ret (.ok (esc, l')) =>
    if esc then stringPass2 l.lpos l.line l.fuel [] l
    else
      match slice l'.input l.pos (l'.pos - 1) with
      | none => .panic
      | some lit => .ret (⟨.stringValue, lit, l.line, l.lpos⟩, l')

/-- `isTripQuotes` (language/lexer.go:458-480). -/
def isTripQuotes (l : Lexer) : Bool × Lexer :=
  let (r1, w1, l1) := l.rd
  let (r2, w2, l2) := l1.rd
  if r1 = 34 ∧ r2 = 34 then (true, l2)
  else
    let l3 := if r1 ≠ 0 then l2.unread w2 else l2
    let l4 := if r2 ≠ 0 then l3.unread w1 else l3
    (false, l4)

/-- First loop of `scanBlockString` (language/lexer.go:278-321).
`Except.ok (hasCR, hasEscape, l)` at the closing quotes, `Except.error (text, l)` otherwise. -/
def blockPass1 : Nat → Bool → Bool → Lexer → Out (Except (Bytes × Lexer) (Bool × Bool × Lexer))
  | 0, _, _, _ => .oof
  | n+1, hasCR, hasEsc, l =>
    let (r, _, l1) := l.rd
    if r = 92 then
      let (r2, _, l2) := l1.rd
      if r2 = 34 then
        let t := isTripQuotes l2
        blockPass1 n hasCR (hasEsc || t.1) t.2
      else blockPass1 n hasCR hasEsc l2
    else if r = 13 then blockPass1 n true hasEsc l1
    else if r = 0 then .ret (.error (msgEofInBlock, l1))
    else if r < 32 ∧ r ≠ 9 ∧ r ≠ 10 ∧ r ≠ 13 then
      .ret (.error (msgBadBlockChar r, l1))
    else if r = 34 then
      let t := isTripQuotes l1
      if t.1 then .ret (.ok (hasCR, hasEsc, t.2)) else blockPass1 n hasCR hasEsc t.2
    else blockPass1 n hasCR hasEsc l1

/-- Second loop of `scanBlockString` (language/lexer.go:338-386); `acc` is the buffer.
`l.input[l.pos+1]` out of range is a panic. -/
def blockPass2 : Nat → Bytes → Lexer → Out (Except (Bytes × Lexer) (Bytes × Lexer))
  | 0, _, _ => .oof
  | n+1, acc, l =>
    let (r, _, l1) := l.rd
    if r = 10 then blockPass2 n (acc ++ encodeRune r) l1
    else if r = 13 then
      match l1.input[l1.pos + 1]? with
      | none => .panic
      | some b => blockPass2 n (if b ≠ 10 then acc ++ encodeRune 10 else acc) l1
    else if r = 92 then
      let (r2, _, l2) := l1.rd
      if r2 = 34 then
        let t := isTripQuotes l2
        if t.1 then blockPass2 n (acc ++ b!"\"\"\"") t.2
        else blockPass2 n (acc ++ encodeRune 92 ++ encodeRune r2) t.2
      else blockPass2 n (acc ++ encodeRune 92 ++ encodeRune r2) l2
    else if r = 0 then .ret (.error (msgEofInBlock, l1))
    else if r = 34 then
      let t := isTripQuotes l1
      if t.1 then .ret (.ok (acc, t.2))
      -- a lone quote: `r < ws` is false for it, so it is written to the buffer
      else blockPass2 n (acc ++ encodeRune r) t.2
    else if r < 32 ∧ r ≠ 9 ∧ r ≠ 10 ∧ r ≠ 13 then
      .ret (.error (msgBadBlockChar r, l1))
    else blockPass2 n (acc ++ encodeRune r) l1

/-- `strings.Split(s, sep)` for a one-byte separator (Go standard library): never empty. -/
def splitOn (sep : Nat) : Bytes → List Bytes
  | [] => [[]]
  | b :: t =>
    if b = sep then [] :: splitOn sep t
    else match splitOn sep t with
      | [] => [[b]]
      | h :: r => (b :: h) :: r

/-- `strings.Join(ls, sep)` (Go standard library). -/
def joinWith (sep : Bytes) : List Bytes → Bytes
  | [] => []
  | [a] => a
  | a :: b :: t => a ++ sep ++ joinWith sep (b :: t)

/-- `leadingWhitespace` (language/lexer.go:445-453); `none` is `math.MaxInt64`.  The byte index of
the first rune that is neither space nor tab; ranging over bytes instead of runes finds
the same index, since both characters are ASCII. -/
def leadingWhitespace : Bytes → Option Nat
  | [] => none
  | b :: t => if b = 32 ∨ b = 9 then (leadingWhitespace t).map (· + 1) else some 0

/-- The `commonIndent` loop (language/lexer.go:404-417) over the lines after the skipped first
one, including the early `break`; `none` is `math.MaxInt64`. -/
def commonIndentLoop (ci : Option Nat) : List Bytes → Option Nat
  | [] => ci
  | ln :: rest =>
    match leadingWhitespace ln with
    | none => commonIndentLoop ci rest
    | some i =>
      if i < ln.length && (match ci with | none => true | some c => decide (i < c)) then
        if i = 0 then some 0 else commonIndentLoop (some i) rest
      else commonIndentLoop ci rest

/-- Removal of the common indent from every line but the first (language/lexer.go:419-427). -/
def stripIndent (ci : Option Nat) (lines : List Bytes) : List Bytes :=
  match ci, lines with
  | some c, h :: t => h :: t.map (fun (ln : Bytes) => if ln.length < c then [] else ln.drop c)
  | _, ls => ls

/-- `leadingWhitespace(line) == math.MaxInt64`: the line is blank. -/
def blankLine (ln : Bytes) : Bool := (leadingWhitespace ln).isNone

/-- The two trimming loops (language/lexer.go:429-438). -/
def trimBlank (lines : List Bytes) : List Bytes :=
  ((lines.dropWhile blankLine).reverse.dropWhile blankLine).reverse

/-- `blockStringLiteral` (language/lexer.go:398-441): the literal and the number of lines. -/
def blockStringLiteral (raw : Bytes) : Bytes × Nat :=
  let lines := splitOn 10 raw
  let considered := if lines.length > 1 then lines.drop 1 else lines
  let ci := commonIndentLoop none considered
  (joinWith [10] (trimBlank (stripIndent ci lines)), lines.length)

/-- `scanBlockString` (language/lexer.go:263-394). -/
def scanBlockString (l : Lexer) : Out (Token × Lexer) :=
  let col : Int := (l.lpos : Int) - 2
  match blockPass1 l.fuel false false l with
  | .panic => .panic
  | .oof => .oof
  | .ret (.error (e, l')) => .ret (⟨.illegal, e, l.line, col⟩, l')
  | .ret (.ok (hasCR, hasEsc, l')) =>
    if !hasCR && !hasEsc then
      match slice l'.input l.pos (l'.pos - 3) with
      | none => .panic
      | some raw =>
        let b := blockStringLiteral raw
        .ret (⟨.stringValue, b.1, l.line, col⟩, { l' with line := l'.line + (b.2 - 1) })
    else
      match blockPass2 l.fuel [] l with
      | .panic => .panic
      | .oof => .oof
      | .ret (.error (e, l2)) => .ret (⟨.illegal, e, l.line, col⟩, l2)
      | .ret (.ok (raw, l2)) =>
        let b := blockStringLiteral raw
        .ret (⟨.stringValue, b.1, l.line, col⟩, { l2 with line := l2.line + (b.2 - 1) })

/-- `Scan` (language/lexer.go:74-127); the fuel bounds the number of comments skipped by the mutual
recursion with `scanComment`. -/
def scanF : Nat → Lexer → Out (Token × Lexer)
  | 0, _ => .oof
  | n+1, l =>
    match readNextSignificant l.fuel false l with
    | .panic => .panic
    | .oof => .oof
    | .ret (r, w, l0) =>
      if isNameStart r then scanName l0
      else if isPunct r then scanPunctuator l0 r w
      else if isDigit r ∨ r = 45 then scanNumber l0 r
      else if r = 35 then
        match skipComment l0.fuel false l0 with
        | .panic => .panic
        | .oof => .oof
        | .ret l1 => scanF n l1
      else if r = 34 then
        let (r1, w1, l1) := l0.rd
        let (r2, w2, l2) := l1.rd
        if r1 = 34 ∧ r2 = 34 then scanBlockString l2
        else scanString ((l2.unread w2).unread w1)
      else if r = 0 then .ret (⟨.eof, [], l0.line, l0.lpos + 1⟩, l0)
      else .ret (⟨.illegal, encodeRune r, l0.line, l0.lpos⟩, l0)

/-- `Scan` with enough fuel. -/
def scan (l : Lexer) : Out (Token × Lexer) := scanF l.fuel l

/-- The tokens obtained by calling `Scan` until the first EOF or Illegal token, inclusive. -/
def tokensF : Nat → Lexer → Out (List Token)
  | 0, _ => .oof
  | n+1, l =>
    match scan l with
    | .panic => .panic
    | .oof => .oof
    | .ret (t, l') =>
      if t.kind = .eof ∨ t.kind = .illegal then .ret [t]
      else match tokensF n l' with
        | .panic => .panic
        | .oof => .oof
        | .ret ts => .ret (t :: ts)

/-- All tokens of an input, up to and including the first EOF or Illegal token. -/
def tokens (input : Bytes) : Out (List Token) := tokensF (input.length + 2) (newLexer input)

end GQL
