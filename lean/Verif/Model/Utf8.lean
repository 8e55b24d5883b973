/-
Model of Go's `utf8.DecodeRune` (standard library, trusted) and of
`encodeRune` in language/lexer.go.
-/
import Verif.Model.Basic

namespace GQL

/-- `utf8.RuneError` = U+FFFD (language/lexer.go:38 `runeError`). -/
def runeError : Nat := 0xFFFD

/-- Continuation byte range accepted by `utf8.DecodeRune`. -/
def isCont (b : Nat) : Bool := 0x80 ≤ b && b ≤ 0xBF

/-- `utf8.DecodeRune` of the Go standard library, as documented: the rune at the start of
the slice and its width in bytes; `(RuneError,0)` for an empty slice, `(RuneError,1)` for an
invalid encoding (overlong forms, surrogates, out of range, missing continuation bytes). -/
def decodeRune : Bytes → Nat × Nat
  | [] => (runeError, 0)
  | b0 :: t =>
    if b0 < 0x80 then (b0, 1)
    else if 0xC2 ≤ b0 ∧ b0 ≤ 0xDF then
      match t with
      | b1 :: _ =>
        if isCont b1 then ((b0 - 0xC0) * 64 + (b1 - 0x80), 2) else (runeError, 1)
      | _ => (runeError, 1)
    else if 0xE0 ≤ b0 ∧ b0 ≤ 0xEF then
      match t with
      | b1 :: b2 :: _ =>
        let lo := if b0 = 0xE0 then 0xA0 else 0x80
        let hi := if b0 = 0xED then 0x9F else 0xBF
        if lo ≤ b1 ∧ b1 ≤ hi ∧ isCont b2 then
          ((b0 - 0xE0) * 4096 + (b1 - 0x80) * 64 + (b2 - 0x80), 3)
        else (runeError, 1)
      | _ => (runeError, 1)
    else if 0xF0 ≤ b0 ∧ b0 ≤ 0xF4 then
      match t with
      | b1 :: b2 :: b3 :: _ =>
        let lo := if b0 = 0xF0 then 0x90 else 0x80
        let hi := if b0 = 0xF4 then 0x8F else 0xBF
        if lo ≤ b1 ∧ b1 ≤ hi ∧ isCont b2 ∧ isCont b3 then
          ((b0 - 0xF0) * 262144 + (b1 - 0x80) * 4096 + (b2 - 0x80) * 64 + (b3 - 0x80), 4)
        else (runeError, 1)
      | _ => (runeError, 1)
    else (runeError, 1)

/-- `encodeRune` (language/lexer.go:542-567).  The callback receives the bytes one by one;
the model returns the list of bytes passed to it.  Runes are never negative here (callers pass
decoded runes or results of `escapedChar`).  Also models `bytes.Buffer.WriteRune` and
`string(r)`, which encode a rune in the same way. -/
def encodeRune (r : Nat) : Bytes :=
  if r ≤ 0x7F then [r % 256]
  else if r ≤ 0x7FF then [0xC0 ||| ((r >>> 6) % 256), 0x80 ||| ((r % 256) &&& 0x3F)]
  else
    -- `case i > maxRune, surrogateMin <= i && i <= surrogateMax: r = runeError; fallthrough`
    let bad : Bool := r > 0x10FFFF || (0xD800 ≤ r && r ≤ 0xDFFF)
    let q := if bad then runeError else r
    if bad || r ≤ 0xFFFF then
      [0xE0 ||| ((q >>> 12) % 256), 0x80 ||| (((q >>> 6) % 256) &&& 0x3F),
       0x80 ||| ((q % 256) &&& 0x3F)]
    else
      [0xF0 ||| ((q >>> 18) % 256), 0x80 ||| (((q >>> 12) % 256) &&& 0x3F),
       0x80 ||| (((q >>> 6) % 256) &&& 0x3F), 0x80 ||| ((q % 256) &&& 0x3F)]

end GQL
