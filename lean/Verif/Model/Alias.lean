/-
Where the bytes of a string live (language/util.go, and the returns of language/lexer.go).

Model/Lexer treats strings as values.  In the code, `btos` (language/util.go:6-8) makes a string out of a
byte slice without copying: the string is a window on the memory of the slice.  A string here is therefore
either a window on the input buffer or memory of its own, and its value is asked of the
buffer as it is at the time of asking.  The functions follow those of Model/Lexer one by one and decide on
the input as it is during the scan; Proofs/Alias shows that, as long as the buffer is not written to, they
give the same tokens.
Simplifications: a window on a private copy (the buffers of `scanString` and of `scanBlockString`, which
nobody else sees) is `own`; the buffer is not written to during the scan.
-/
import Verif.Model.Lexer

namespace GQL

/-- A Go string: a window on the input buffer, or bytes nobody else can write to. -/
inductive Str where
  | view (off len : Nat)
  | own (b : Bytes)
  deriving DecidableEq, Repr, Inhabited

/-- What the string reads when the buffer is `buf`. -/
def Str.value (buf : Bytes) : Str → Bytes
  | .view off len => (buf.drop off).take len
  | .own b => b

/-- `Token` (language/token.go:42-47). -/
structure ATok where
  kind : TokenKind
  lit : Str
  line : Nat
  col : Int
  deriving DecidableEq, Repr

/-- The token as it reads when the buffer is `buf`. -/
def ATok.read (buf : Bytes) (t : ATok) : Token := ⟨t.kind, t.lit.value buf, t.line, t.col⟩

/-- `btos(input[i:j])` (language/util.go:6-8, and a slice expression that may panic). -/
def btosSlice (b : Bytes) (i j : Nat) : Option Str :=
  if i ≤ j ∧ j ≤ b.length then some (.view i (j - i)) else none

/-- `scanName` (language/lexer.go:647-675). -/
def scanNameA (l : Lexer) : Out (ATok × Lexer) :=
  match scanNameLoop l.fuel l with
  | .panic => .panic
  | .oof => .oof
  | .ret l' =>
    match btosSlice l'.input (l.pos - 1) l'.pos with
    | none => .panic
    | some lit => .ret (⟨.name, lit, l'.line, l.lpos⟩, l')

/-- `scanPunctuator` (language/lexer.go:678-717); the text of `...` is a constant of the program. -/
def scanPunctuatorA (l : Lexer) (r w : Nat) : Out (ATok × Lexer) :=
  if r = 46 then
    let (r2, _, l2) := l.rd
    let (r3, _, l3) := l2.rd
    if r2 ≠ 46 ∨ r3 ≠ 46 then
      .ret (⟨.illegal, .own (msgBadPunct r r2 r3), l3.line, l.lpos⟩, l3)
    else .ret (⟨.punctuator, .own b!"...", l3.line, l.lpos⟩, l3)
  else
    match btosSlice l.input (l.pos - w) l.pos with
    | none => .panic
    | some lit => .ret (⟨.punctuator, lit, l.line, l.lpos⟩, l)

/-- End of `scanNumber` (language/lexer.go:818-833). -/
def numberEndA (l0 : Lexer) (isFloat : Bool) (r w : Nat) (l : Lexer) : Out (ATok × Lexer) :=
  let l' := if r ≠ 0 then l.unread w else l
  match btosSlice l'.input (l0.pos - 1) l'.pos with
  | none => .panic
  | some lit => .ret (⟨if isFloat then .floatValue else .intValue, lit, l'.line, l0.lpos⟩, l')

/-- Exponent part of `scanNumber` (language/lexer.go:789-816). -/
def numberExpA (l0 : Lexer) (isFloat : Bool) (r w : Nat) (l : Lexer) : Out (ATok × Lexer) :=
  if r = 101 ∨ r = 69 then
    let (r1, _, l1) := l.rd
    let s := readIf (r1 = 43 ∨ r1 = 45) r1 l1
    match readDigits s.2 s.1 with
    | .ret (.ok (r3, w3, l3)) => numberEndA l0 true r3 w3 l3
    | .ret (.error e) => .ret (⟨.illegal, .own e, s.2.line, l0.lpos⟩, s.2)
    | .panic => .panic
    | .oof => .oof
  else numberEndA l0 isFloat r w l

/-- Fraction part of `scanNumber` (language/lexer.go:768-787). -/
def numberFracA (l0 : Lexer) (r w : Nat) (l : Lexer) : Out (ATok × Lexer) :=
  if r = 46 then
    let (r1, _, l1) := l.rd
    match readDigits l1 r1 with
    | .ret (.ok (r2, w2, l2)) => numberExpA l0 true r2 w2 l2
    | .ret (.error e) => .ret (⟨.illegal, .own e, l1.line, l0.lpos⟩, l1)
    | .panic => .panic
    | .oof => .oof
  else numberExpA l0 false r w l

/-- `scanNumber` (language/lexer.go:720-834). -/
def scanNumberA (l0 : Lexer) (r0 : Nat) : Out (ATok × Lexer) :=
  let s := readIf (r0 = 45) r0 l0
  if s.1 = 48 then
    let (r, w, l2) := s.2.rd
    if isDigit r then
      .ret (⟨.illegal, .own (msgDigitAfterZero r), l2.line, l0.lpos⟩, l2)
    else numberFracA l0 r w l2
  else
    match readDigits s.2 s.1 with
    | .ret (.ok (r, w, l2)) => numberFracA l0 r w l2
    | .ret (.error e) => .ret (⟨.illegal, .own e, s.2.line, l0.lpos⟩, s.2)
    | .panic => .panic
    | .oof => .oof

/-- A token all of whose bytes are its own. -/
def Token.owned (t : Token) : ATok := ⟨t.kind, .own t.lit, t.line, t.col⟩

/-- The second loop of `scanString` (language/lexer.go:223-259) fills a buffer of its own. -/
def ownedOut : Out (Token × Lexer) → Out (ATok × Lexer)
  | .ret (t, l) => .ret (t.owned, l)
  | .panic => .panic
  | .oof => .oof

/-- `scanString` (language/lexer.go:130-260): without escapes, a window on the input (209). -/
def scanStringA (l : Lexer) : Out (ATok × Lexer) :=
  match stringPass1 l.fuel false l with
  | .panic => .panic
  | .oof => .oof
  | .ret (.error (r, l')) =>
    .ret (⟨.illegal, .own (msgBadStringChar r), l.line, l.lpos⟩, l')
  | .ret (.ok (esc, l')) =>
    if esc then ownedOut (stringPass2 l.lpos l.line l.fuel [] l)
    else
      match btosSlice l'.input l.pos (l'.pos - 1) with
      | none => .panic
      | some lit => .ret (⟨.stringValue, lit, l.line, l.lpos⟩, l')

/-- `strings.Split(s, sep)` (Go standard library) for a one-byte separator and a window that begins at `off`:
windows again; each with its beginning and the bytes it reads during the scan. -/
def splitOnA (sep : Nat) : Nat → Bytes → List (Nat × Bytes)
  | off, [] => [(off, [])]
  | off, b :: t =>
    if b = sep then (off, []) :: splitOnA sep (off + 1) t
    else match splitOnA sep (off + 1) t with
      | [] => [(off, [b])]
      | h :: r => (off, b :: h.2) :: r

/-- Removal of the common indent from every line but the first (language/lexer.go:419-427): `lines[i][commonIndent:]`
is a window, too; a line that is too short becomes `""`. -/
def stripIndentA (ci : Option Nat) (lines : List (Nat × Bytes)) : List (Nat × Bytes) :=
  match ci, lines with
  | some c, h :: t => h :: t.map (fun ln => if ln.2.length < c then (ln.1, []) else (ln.1 + c, ln.2.drop c))
  | _, ls => ls

/-- The two trimming loops (language/lexer.go:429-438). -/
def trimBlankA (lines : List (Nat × Bytes)) : List (Nat × Bytes) :=
  ((lines.dropWhile (fun ln => blankLine ln.2)).reverse.dropWhile (fun ln => blankLine ln.2)).reverse

/-- `strings.Join(ls, "\n")` (Go standard library): one string is returned as it is, several are copied. -/
def joinA : List (Nat × Bytes) → Str
  | [] => .own []
  | [ln] => .view ln.1 ln.2.length
  | ln :: ln2 :: t => .own (joinWith [10] ((ln :: ln2 :: t).map (·.2)))

/-- `blockStringLiteral` (language/lexer.go:398-441) of a window that begins at `off` and reads `raw`. -/
def blockStringLiteralA (off : Nat) (raw : Bytes) : Str × Nat :=
  let lines := splitOnA 10 off raw
  let considered := if lines.length > 1 then lines.drop 1 else lines
  let ci := commonIndentLoop none (considered.map (·.2))
  (joinA (trimBlankA (stripIndentA ci lines)), lines.length)

/-- `scanBlockString` (language/lexer.go:263-394): with a carriage return or an escaped `"""`, the text is copied. -/
def scanBlockStringA (l : Lexer) : Out (ATok × Lexer) :=
  let col : Int := (l.lpos : Int) - 2
  match blockPass1 l.fuel false false l with
  | .panic => .panic
  | .oof => .oof
  | .ret (.error (e, l')) => .ret (⟨.illegal, .own e, l.line, col⟩, l')
  | .ret (.ok (hasCR, hasEsc, l')) =>
    if !hasCR && !hasEsc then
      match slice l'.input l.pos (l'.pos - 3) with
      | none => .panic
      | some raw =>
        let b := blockStringLiteralA l.pos raw
        .ret (⟨.stringValue, b.1, l.line, col⟩, { l' with line := l'.line + (b.2 - 1) })
    else
      match blockPass2 l.fuel [] l with
      | .panic => .panic
      | .oof => .oof
      | .ret (.error (e, l2)) => .ret (⟨.illegal, .own e, l.line, col⟩, l2)
      | .ret (.ok (raw, l2)) =>
        let b := blockStringLiteral raw
        .ret (⟨.stringValue, .own b.1, l.line, col⟩, { l2 with line := l2.line + (b.2 - 1) })

/-- `Scan` (language/lexer.go:74-127). -/
def scanFA : Nat → Lexer → Out (ATok × Lexer)
  | 0, _ => .oof
  | n+1, l =>
    match readNextSignificant l.fuel false l with
    | .panic => .panic
    | .oof => .oof
    | .ret (r, w, l0) =>
      if isNameStart r then scanNameA l0
      else if isPunct r then scanPunctuatorA l0 r w
      else if isDigit r ∨ r = 45 then scanNumberA l0 r
      else if r = 35 then
        match skipComment l0.fuel false l0 with
        | .panic => .panic
        | .oof => .oof
        | .ret l1 => scanFA n l1
      else if r = 34 then
        let (r1, w1, l1) := l0.rd
        let (r2, w2, l2) := l1.rd
        if r1 = 34 ∧ r2 = 34 then scanBlockStringA l2
        else scanStringA ((l2.unread w2).unread w1)
      else if r = 0 then .ret (⟨.eof, .own [], l0.line, l0.lpos + 1⟩, l0)
      else .ret (⟨.illegal, .own (encodeRune r), l0.line, l0.lpos⟩, l0)

/-- `Scan` with enough fuel. -/
def scanA (l : Lexer) : Out (ATok × Lexer) := scanFA l.fuel l

/-- The tokens obtained by calling `Scan` until the first EOF or Illegal token, inclusive. -/
def tokensFA : Nat → Lexer → Out (List ATok)
  | 0, _ => .oof
  | n+1, l =>
    match scanA l with
    | .panic => .panic
    | .oof => .oof
    | .ret (t, l') =>
      if t.kind = .eof ∨ t.kind = .illegal then .ret [t]
      else match tokensFA n l' with
        | .panic => .panic
        | .oof => .oof
        | .ret ts => .ret (t :: ts)

/-- All tokens of an input, up to and including the first EOF or Illegal token. -/
def tokensA (input : Bytes) : Out (List ATok) := tokensFA (input.length + 2) (newLexer input)

end GQL
