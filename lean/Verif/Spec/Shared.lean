/-
Which tokens are returned as a piece of the caller's buffer (for property C83).  Independent of the model.
-/
import Verif.Spec.GoBlock

namespace GQL.Spec

/-- Nothing in the inside of a block string has to be rewritten: a backslash takes the next character with it unless it
stands before three quotes; otherwise there is no CR. -/
def verbatim : List Char → Bool
  | '\\' :: '"' :: '"' :: '"' :: _ => false
  | '\\' :: _ :: s => verbatim s
  | '\r' :: _ => false
  | _ :: s => verbatim s
  | [] => true

/-- The text of the token is not copied: every word and every punctuator but `...`, a quoted string without a backslash, and a
block string of which one line is left and nothing had to be rewritten. -/
def shared (i : Item) : Bool :=
  match i.tok.kind with
  | .punctuator => i.chars ≠ ['.', '.', '.']
  | .string =>
    if quotes3.isPrefixOf i.chars then verbatim (i.chars.drop 3) && !i.tok.value.isEmpty && !i.tok.value.contains '\n'
    else !i.chars.contains '\\'
  | _ => true

end GQL.Spec
