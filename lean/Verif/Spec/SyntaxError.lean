/-
What syntax errors say.
-/
import Verif.Model.Parser
import Verif.Spec.Lex
import Verif.Spec.Json

namespace GQL.Spec.Syntax

/-- The parts of a text between the bars. -/
def bars : Bytes → List Bytes
  | [] => [[]]
  | b :: bs => if b = 124 then [] :: bars bs else
    match bars bs with
    | [] => [[b]]
    | x :: xs => (b :: x) :: xs

/-- A name. -/
def IsName : Bytes → Prop
  | [] => False
  | b :: bs => ((97 ≤ b ∧ b ≤ 122) ∨ (65 ≤ b ∧ b ≤ 90) ∨ b = 95) ∧
    ∀ x ∈ bs, (97 ≤ x ∧ x ≤ 122) ∨ (65 ≤ x ∧ x ≤ 90) ∨ x = 95 ∨ (48 ≤ x ∧ x ≤ 57)

/-- A token that a part of the list after "Wanted:" asks for: `Name 'a|b'` asks for one of the names, `Name ''` for any name, `Punctuator 'x'` for the
punctuator. -/
def Wanted (part : Bytes) (t : Token) : Prop :=
  (∃ inner, part = b!"Name '" ++ inner ++ b!"'" ∧ t.kind = .name ∧ IsName t.lit ∧ (inner = [] ∨ t.lit ∈ bars inner)) ∨
  (∃ inner, part = b!"Punctuator '" ++ inner ++ b!"'" ∧ t.kind = .punctuator ∧ t.lit = inner)

/-- A token with which a value begins. -/
def BeginsValue (t : Token) : Prop :=
  t.kind = .name ∨ t.kind = .intValue ∨ t.kind = .floatValue ∨ t.kind = .stringValue ∨
    (t.kind = .punctuator ∧ (t.lit = b!"$" ∨ t.lit = b!"[" ∨ t.lit = b!"{"))

/-- What an error asks for: what stands after "Wanted:"; the error with "TODO" asks for a value. -/
def Asked (e : PErr) (t : Token) : Prop :=
  match e with
  | .unexpected _ wants => ∃ part ∈ wants, Wanted part t
  | .todo => BeginsValue t
  | _ => False

/-- The token that an error is about.  (The error with "TODO" does not show it: it is one with which no value begins.) -/
def About (e : PErr) (t : Token) : Prop :=
  match e with
  | .unexpected found _ => found = t
  | .atoi text => t.kind = .intValue ∧ t.lit = text
  | .parseFloat text => t.kind = .floatValue ∧ t.lit = text
  | .todo => ¬ BeginsValue t

/-- The errors about a token that is right in its place but not good enough: a reserved word as an enumeration value, a number out of range. -/
def OutOfRange : PErr → Prop
  | .unexpected t wants => t.kind = .name ∧ (t.lit = b!"false" ∨ t.lit = b!"true" ∨ t.lit = b!"null") ∧ wants = [b!"Name 'valid enum value'"]
  | .atoi _ => True
  | .parseFloat _ => True
  | .todo => False

/-- The last of the tokens is a string and the next one begins an operation or a fragment. -/
def AfterString (before : List Token) (t : Token) : Prop :=
  (∃ s0 d, before = s0 ++ [d] ∧ d.kind = .stringValue) ∧
    (t.lit = b!"query" ∨ t.lit = b!"mutation" ∨ t.lit = b!"fragment" ∨ t.lit = b!"{")

/-- Names of the kinds of tokens. -/
def kindName : TokenKind → Bytes
  | .illegal => b!"Illegal"
  | .eof => b!"EOF"
  | .punctuator => b!"Punctuator"
  | .name => b!"Name"
  | .intValue => b!"IntValue"
  | .floatValue => b!"FloatValue"
  | .stringValue => b!"StringValue"

/-- A whole number in decimal notation. -/
def InDecimal (i : Int) (t : Bytes) : Prop :=
  (JsonNatural t ∧ i = digitsValue t) ∨ (∃ d, t = 45 :: d ∧ JsonNatural d ∧ digitsValue d ≠ 0 ∧ i = -(digitsValue d : Int))

/-- Alternatives. -/
def alternatives : List Bytes → Bytes
  | [] => []
  | [w] => w
  | w :: ws => w ++ b!" or " ++ alternatives ws

/-- The text of an error. -/
def Message (e : PErr) (text : Bytes) : Prop :=
  match e with
  | .unexpected t wants => ∃ line col, InDecimal t.line line ∧ InDecimal t.col col ∧
      text = b!"parser error: unexpected token found at line: " ++ line ++ b!", column: " ++ col ++ b!". Found: " ++ kindName t.kind ++ b!" '" ++ t.lit ++ b!"'." ++
        (if wants = [] then [] else b!" Wanted: " ++ alternatives wants ++ b!".")
  | .atoi lit => text = b!"strconv.Atoi: parsing \"" ++ lit ++ b!"\": value out of range"
  | .parseFloat lit => text = b!"strconv.ParseFloat: parsing \"" ++ lit ++ b!"\": value out of range"
  | .todo => text = b!"TODO: see `parseDefinition`"

/-- What errors ask for. -/
def requests : List (List Bytes) := [
  [],
  [b!"Name ''"],
  [b!"Name 'on'"],
  [b!"Name '!on'"],
  [b!"Name 'schema'"],
  [b!"Name 'extend'"],
  [b!"Name 'valid enum value'"],
  [b!"NamedType"],
  [b!"Name 'query|mutation|subscription'"],
  [b!"Name 'query|mutation|fragment'", b!"Punctuator '{'"],
  [b!"Name 'schema|scalar|type|interface|union|enum|input'"],
  [b!"Name 'QUERY|MUTATION|SUBSCRIPTION|FIELD|FRAGMENT_DEFINITION|FRAGMENT_SPREAD|INLINE_FRAGMENT|VARIABLE_DEFINITION|SCHEMA|SCALAR|OBJECT|FIELD_DEFINITION|ARGUMENT_DEFINITION|INTERFACE|UNION|ENUM|ENUM_VALUE|INPUT_OBJECT|INPUT_FIELD_DEFINITION'"],
  [b!"Punctuator ':'"],
  [b!"Punctuator '@'"],
  [b!"Punctuator '$'"],
  [b!"Punctuator ')'"],
  [b!"Punctuator ']'"],
  [b!"Punctuator '{'"],
  [b!"Punctuator '}'"]]

end GQL.Spec.Syntax
