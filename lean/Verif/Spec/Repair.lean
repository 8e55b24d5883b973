/-
Bytes that are not UTF-8, read as text.
-/
import Verif.Spec.Lex
import Verif.Spec.StrMap
import Verif.Model.Lexer

namespace GQL.Spec

/-- The replacement character. -/
def replacement : Char := '\uFFFD'

/-- The text of some bytes: a byte that begins no character counts as U+FFFD. -/
inductive Repaired : List Nat → List Char → Prop
  | nil : Repaired [] []
  | char (c : Char) {b cs} : Repaired b cs → Repaired (utf8Char c ++ b) (c :: cs)
  | bad {x b cs} : (∀ c t, x :: b ≠ utf8Char c ++ t) → Repaired b cs → Repaired (x :: b) (replacement :: cs)

/-- The bytes end with a whole character (or there are none). -/
def EndsInChar (b : List Nat) : Prop := b = [] ∨ ∃ a c, b = a ++ utf8Char c

/-- Carriage return, a byte that is not ASCII, line feed. -/
def Trap (b : List Nat) : Prop := ∃ p x q, b = p ++ 13 :: x :: 10 :: q ∧ 128 ≤ x

/-- The same token, the text of a string literal repaired. -/
structure RepairedToken (t t' : Token) : Prop where
  kind : t'.kind = t.kind
  line : t'.line = t.line
  col : t'.col = t.col
  lit : t.kind ≠ .stringValue → t'.lit = t.lit
  str : t.kind = .stringValue → ∃ cs, Repaired t.lit cs ∧ t'.lit = utf8 cs

/-- Token by token. -/
inductive RepairedTokens : List Token → List Token → Prop
  | nil : RepairedTokens [] []
  | cons {t t' ts ts'} : RepairedToken t t' → RepairedTokens ts ts' → RepairedTokens (t :: ts) (t' :: ts')

/-- The text of bytes, in UTF-8. -/
def IsRepair (f : List Nat → List Nat) : Prop := ∀ b, ∃ cs, Repaired b cs ∧ f b = utf8 cs

/-- A document with other strings. -/
def strDoc (f : List Nat → List Nat) (d : Document) : Document := { d with defs := d.defs.map (strDef f) }

end GQL.Spec
