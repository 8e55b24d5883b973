/-
Where in a text its error is.
-/
import Verif.Model.Parser
import Verif.Spec.GoBlock

namespace GQL.Spec.Syntax

/-- Kinds of tokens in the code. -/
def codeKind : Kind → TokenKind
  | .punctuator => .punctuator
  | .name => .name
  | .int => .intValue
  | .float => .floatValue
  | .string => .stringValue

/-- The tokens before the error, and the text before it. -/
structure Place (text : List Char) (before : List Token) (t : Token) where
  /-- the text before the token -/
  head : List Char
  /-- the text from the token on -/
  tail : List Char
  split : text = head ++ tail
  /-- the tokens of the text before -/
  items : List Item
  lex : Lex GoBlock [] head items []
  same : before.map (fun t => (t.kind, t.lit)) = items.map (fun i => (codeKind i.tok.kind, utf8 i.tok.value))
  /-- the token stands at the beginning of the rest: the end of the text, a token, or nothing that is a token -/
  starts : (tail = [] ∧ t.kind = .eof) ∨
    (∃ tok rest, Lexeme GoBlock tail tok rest ∧ t.kind = codeKind tok.kind ∧ t.lit = utf8 tok.value) ∨
    (Stuck GoBlock tail ∧ t.kind = .illegal)

/-- A token of a type reference. -/
def OfType (t : Token) : Prop :=
  t.kind = .name ∨ (t.kind = .punctuator ∧ (t.lit = b!"[" ∨ t.lit = b!"]" ∨ t.lit = b!"!"))

/-- A list type or the beginning of one. -/
def ListBegun (ts : List Token) : Prop :=
  ∃ t more, ts = t :: more ∧ t.kind = .punctuator ∧ t.lit = b!"[" ∧ ∀ u ∈ more, OfType u

/-- The error asks for `]` or for a named type. -/
def WantsType : PErr → Prop
  | .unexpected _ wants => wants = [b!"Punctuator ']'"] ∨ wants = [b!"NamedType"]
  | _ => False

/-- The three places where an error comes late: a list type where only a named type can stand, as type condition and as root operation type,
and a fragment named `on`. -/
inductive Late (e : PErr) (before : List Token) : Prop
  | condition (x y : List Token) (on : Token) (h : before = x ++ on :: y) (hk : on.kind = .name) (hl : on.lit = b!"on") (hy : ListBegun y)
      (he : WantsType e)
  | fragmentName (x : List Token) (fragment on : Token) (h : before = x ++ [fragment, on]) (hk : fragment.kind = .name) (hl : fragment.lit = b!"fragment")
      (hk2 : on.kind = .name) (hl2 : on.lit = b!"on") (he : ∃ found, e = .unexpected found [b!"Name '!on'"])
  | rootType (x y z : List Token) (schema op colon : Token) (h : before = x ++ schema :: (y ++ op :: colon :: z))
      (hk : schema.kind = .name) (hl : schema.lit = b!"schema") (hk2 : op.kind = .name)
      (hl2 : op.lit = b!"query" ∨ op.lit = b!"mutation" ∨ op.lit = b!"subscription") (hk3 : colon.kind = .punctuator) (hl3 : colon.lit = b!":")
      (hz : ListBegun z) (he : WantsType e)

end GQL.Spec.Syntax
