/-
What is wrong with a text at which no token begins: the message of the Illegal token.
Independent of the model of the Go lexer; texts contain no NUL.

Reading beyond the end of the text counts as reading NUL.
-/
import Verif.Spec.Lex

namespace GQL.Spec

/-- The first character of a text, NUL if there is none. -/
def peek : List Char → Char
  | [] => '\x00'
  | c :: _ => c

/-- Lower-case hexadecimal digits. -/
def hexDigits : List Char := "0123456789abcdef".toList

/-- Control characters with an escape of their own in Go. -/
def goEscapes : List (Char × Char) :=
  [('\x07', 'a'), ('\x08', 'b'), ('\x0c', 'f'), ('\n', 'n'), ('\r', 'r'), ('\t', 't'), ('\x0b', 'v')]

/-- A character inside a Go literal quoted by `q` (characters from U+0080 on stand for themselves). -/
def goEscape (q c : Char) : List Char :=
  if c = q ∨ c = '\\' then ['\\', c]
  else match goEscapes.lookup c with
    | some e => ['\\', e]
    | none =>
      if c.toNat < 32 ∨ c.toNat = 127 then
        ['\\', 'x', hexDigits.getD (c.toNat / 16) '?', hexDigits.getD (c.toNat % 16) '?']
      else [c]

/-- A Go character literal. -/
def goChar (c : Char) : List Char := ['\''] ++ goEscape '\'' c ++ ['\'']

/-- A Go string literal. -/
def goString (s : List Char) : List Char := ['"'] ++ s.flatMap (goEscape '"') ++ ['"']

/-- `StrScan text escapes stop`: the inside of a quoted string, read up to the character `stop` that
is a quote, a control character or (NUL) the end; `escapes` are the texts after the backslashes.
A backslash takes one character with it, `\u` four more, whatever they are. -/
inductive StrScan : List Char → List (List Char) → Char → Prop
  | stop {s} : (peek s = '"' ∨ printable (peek s) = false) → StrScan s [] (peek s)
  | char {c s es x} : c ≠ '"' → c ≠ '\\' → printable c = true → StrScan s es x → StrScan (c :: s) es x
  | esc {s es x} : peek s ≠ 'u' → StrScan s.tail es x → StrScan ('\\' :: s) ([peek s] :: es) x
  | unicode {s es x} : StrScan (s.drop 4) es x → StrScan ('\\' :: 'u' :: s) (('u' :: s.take 4) :: es) x

/-- The text after a backslash is an escape of the specification. -/
inductive GoodEscape : List Char → Prop
  | simple {e x : Char} : (e, x) ∈ escapeTable → GoodEscape [e]
  | unicode {a b c d : Char} : (hexVal a).isSome → (hexVal b).isSome → (hexVal c).isSome →
      (hexVal d).isSome → GoodEscape ['u', a, b, c, d]

/-- What is wrong with a text that follows an opening quote. -/
inductive StrError (s : List Char) : List Char → Prop
  | stopped {es x} : StrScan s es x → x ≠ '"' →
      StrError s ("invalid character within string: ".toList ++ goChar x)
  | escape {before e after} : StrScan s (before ++ e :: after) '"' → (∀ f ∈ before, GoodEscape f) →
      ¬ GoodEscape e → StrError s ("invalid character escape sequence: \\".toList ++ e)

/-- A single last character is passed over. -/
def passLast (s : List Char) : List Char := if s.length = 1 then [] else s

/-- `BlockScan text stop`: the inside of a block string without closing quotes before the character
`stop`, a control character or (NUL) the end.  After a quote that is not the first of three, the
last character of the text is passed over. -/
inductive BlockScan : List Char → Char → Prop
  | eof : BlockScan [] '\x00'
  | control {c s} : printable c = false → lineTerm c = false → BlockScan (c :: s) c
  | char {c s x} : c ≠ '"' → c ≠ '\\' → (printable c = true ∨ lineTerm c = true) → BlockScan s x →
      BlockScan (c :: s) x
  | quote {s x} : ¬ ['"', '"'] <+: s → BlockScan (passLast s) x → BlockScan ('"' :: s) x
  | escQuotes {s x} : BlockScan s x → BlockScan ('\\' :: quotes3 ++ s) x
  | escQuote {s x} : ¬ ['"', '"'] <+: s → BlockScan (passLast s) x → BlockScan ('\\' :: '"' :: s) x
  | esc {s x} : peek s ≠ '"' → BlockScan s.tail x → BlockScan ('\\' :: s) x

/-- `LexError text message`: no token begins at `text`, and `message` says why. -/
inductive LexError : List Char → List Char → Prop
  | char {c t} : nameStart c = false → c ∉ punctuators → c.isDigit = false → c ∉ ['.', '-', '"', '#'] →
      ignored c = false → LexError (c :: t) [c]
  | dots {t} : ¬ ['.', '.'] <+: t →
      LexError ('.' :: t)
        ("invalid punctuator, expected \"...\" but got: ".toList ++ goString ['.', peek t, peek t.tail])
  | zero {sign d t} : (sign = [] ∨ sign = ['-']) → d.isDigit = true →
      LexError (sign ++ '0' :: d :: t) ("invalid number, unexpected digit after 0: ".toList ++ goChar d)
  | minus {t} : notNext Char.isDigit t →
      LexError ('-' :: t) ("invalid number, expected digit but got: ".toList ++ goChar (peek t))
  | fraction {i t} : IsIntegerPart i → notNext Char.isDigit t →
      LexError (i ++ '.' :: t) ("invalid number, expected digit but got: ".toList ++ goChar (peek t))
  | exponent {i f e s t} : IsIntegerPart i → (f = [] ∨ IsFraction f) → (e = 'e' ∨ e = 'E') →
      (s = [] ∧ notNext (fun c => c == '+' || c == '-') t ∨ s = ['+'] ∨ s = ['-']) → notNext Char.isDigit t →
      LexError (i ++ f ++ e :: s ++ t) ("invalid number, expected digit but got: ".toList ++ goChar (peek t))
  | string {s m} : ¬ ['"', '"'] <+: s → StrError s m → LexError ('"' :: s) m
  | unclosed {s} : BlockScan s '\x00' →
      LexError (quotes3 ++ s) "unexpected eof, probably unclosed block string".toList
  | block {s x} : BlockScan s x → x ≠ '\x00' →
      LexError (quotes3 ++ s) ("invalid character within block string: ".toList ++ goChar x)

end GQL.Spec
