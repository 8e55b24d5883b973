/-
What the Go lexer takes a block string to be.  It differs from the specification: a backslash
always takes the next character with it, a CR before `x LF` disappears, a CR of a CRLF becomes a line
of its own, and CR after a backslash is not a line terminator.  `Props/C07` relates the two.
-/
import Verif.Spec.Lex

namespace GQL.Spec

/-- The byte after the next one is LF: this is what the code looks at after a CR. -/
def crDropped (s : List Char) : Bool :=
  match s with
  | a :: b :: _ => a.toNat < 128 && b == '\n'
  | _ => false

/-- Inside of a block string, as the code reads it. -/
inductive GoBlockText : List Char → List Char → List Char → Prop
  | close (rest) : GoBlockText (quotes3 ++ rest) [] rest
  | esc {s v rest} : GoBlockText s v rest → GoBlockText ('\\' :: quotes3 ++ s) (quotes3 ++ v) rest
  | pair (c : Char) {s v rest} : ¬ quotes3 <+: (c :: s) → GoBlockText s v rest →
      GoBlockText ('\\' :: c :: s) ('\\' :: c :: v) rest
  | cr {s v rest} : GoBlockText s v rest →
      GoBlockText ('\r' :: s) (if crDropped s then v else '\n' :: v) rest
  | char (c : Char) {s v rest} : c ≠ '\\' → c ≠ '\r' → ¬ quotes3 <+: (c :: s) →
      (printable c = true ∨ c = '\n') → GoBlockText s v rest → GoBlockText (c :: s) (c :: v) rest

/-- Splitting at LF only. -/
def splitLF : List Char → List (List Char)
  | [] => [[]]
  | c :: t =>
    if c = '\n' then [] :: splitLF t
    else match splitLF t with
      | [] => [[c]]
      | l :: ls => (c :: l) :: ls

/-- Block strings as the code has them. -/
def GoBlock (text value rest : List Char) : Prop :=
  ∃ raw, GoBlockText text raw rest ∧ value = formatBlock (splitLF raw)

end GQL.Spec
