/-
Model of the `String` methods and the `Is…` tests of ast/ast.go and language/token.go.

In Go a kind is a number (`int8`, `int32` or `int`), and nothing prevents a program from converting any other number to a kind, so
the functions here take every integer.  The inductive types of Model/Ast and Model/Lexer have the constants only; `OpKind.code`
and the others say which number a constant is.
-/
import Verif.Model.Ast
import Verif.Model.Lexer

namespace GQL.Names

/-- The constants of an `iota` block that begins with `first`, as a table with the names that the `switch` or map gives them. -/
abbrev Table := List (Int × Bytes)

/-- Lookup in a Go map, or a `switch` whose cases are the entries: the first entry with the key. -/
def Table.find (t : Table) (k : Int) : Option Bytes := (t.find? (fun e => e.1 == k)).map (·.2)

/-- `DefinitionKind` (ast/ast.go:55-62) and its `String` (66-77). -/
def definitionKind : Table := [(0, b!"executable"), (1, b!"type system"), (2, b!"type system extension")]

def definitionKindString (k : Int) : Bytes :=
  match definitionKind.find k with
  | some s => s
  | none => b!"invalid"

/-- `ExecutableDefinitionKind` (ast/ast.go:92-97) and its `String` (101-110). -/
def executableKind : Table := [(0, b!"operation"), (1, b!"fragment")]

def executableKindString (k : Int) : Bytes :=
  match executableKind.find k with
  | some s => s
  | none => b!"invalid"

/-- `OperationDefinitionKind` (ast/ast.go:137-141) and its `String` (145-156). -/
def operationKind : Table := [(0, b!"query"), (1, b!"mutation"), (2, b!"subscription")]

def operationKindString (k : Int) : Bytes :=
  match operationKind.find k with
  | some s => s
  | none => b!"invalid"

/-- `SelectionKind` (ast/ast.go:170-174) and its `String` (178-189). -/
def selectionKind : Table := [(0, b!"field"), (1, b!"fragment spread"), (2, b!"inline fragment")]

def selectionKindString (k : Int) : Bytes :=
  match selectionKind.find k with
  | some s => s
  | none => b!"unknown"

/-- `ValueKind` (ast/ast.go:223-234) and its `String` (238-261).  An integer value is called "int8 value". -/
def valueKind : Table :=
  [(0, b!"variable value"), (1, b!"int8 value"), (2, b!"float value"), (3, b!"string value"), (4, b!"boolean value"),
   (5, b!"null value"), (6, b!"enum value"), (7, b!"list value"), (8, b!"object value")]

def valueKindString (k : Int) : Bytes :=
  match valueKind.find k with
  | some s => s
  | none => b!"unknown value"

/-- `TypeKind` (ast/ast.go:294-297) and its `String` (301-310). -/
def typeRefKind : Table := [(0, b!"NamedType"), (1, b!"ListType")]

def typeRefKindString (k : Int) : Bytes :=
  match typeRefKind.find k with
  | some s => s
  | none => b!"InvalidType"

/-- `TypeSystemDefinitionKind` (ast/ast.go:347-354) and its `String` (358-369). -/
def typeSystemKind : Table := [(0, b!"schema"), (1, b!"type"), (2, b!"directive")]

def typeSystemKindString (k : Int) : Bytes :=
  match typeSystemKind.find k with
  | some s => s
  | none => b!"invalid"

/-- `TypeDefinitionKind` (ast/ast.go:417-424) and its `String` (429-446). -/
def typeDefinitionKind : Table :=
  [(0, b!"scalar"), (1, b!"object"), (2, b!"interface"), (3, b!"union"), (4, b!"enum"), (5, b!"input object")]

def typeDefinitionKindString (k : Int) : Bytes :=
  match typeDefinitionKind.find k with
  | some s => s
  | none => b!"unknown"

/-- `TokenKind` (language/token.go:4-22) and `TokenKindNames` (25-38). -/
def tokenKind : Table :=
  [(-1, b!"Illegal"), (0, b!"EOF"), (1, b!"Punctuator"), (2, b!"Name"), (3, b!"IntValue"), (4, b!"FloatValue"),
   (5, b!"StringValue"), (6, b!"UnicodeBOM"), (7, b!"WhiteSpace"), (8, b!"LineTerminator"), (9, b!"Comment"), (10, b!"Comma")]

/-- `TokenKind.String` (language/token.go:53-55): a map lookup, which gives "" for a missing key. -/
def tokenKindString (k : Int) : Bytes :=
  match tokenKind.find k with
  | some s => s
  | none => []

/-- `NamesByDirectiveLocations` (ast/ast.go:631-651); the keys are 1, 2, 4, … (653-673). -/
def directiveLocation : Table :=
  [(1, b!"QUERY"), (2, b!"MUTATION"), (4, b!"SUBSCRIPTION"), (8, b!"FIELD"), (16, b!"FRAGMENT_DEFINITION"),
   (32, b!"FRAGMENT_SPREAD"), (64, b!"INLINE_FRAGMENT"), (128, b!"VARIABLE_DEFINITION"), (256, b!"SCHEMA"), (512, b!"SCALAR"),
   (1024, b!"OBJECT"), (2048, b!"FIELD_DEFINITION"), (4096, b!"ARGUMENT_DEFINITION"), (8192, b!"INTERFACE"), (16384, b!"UNION"),
   (32768, b!"ENUM"), (65536, b!"ENUM_VALUE"), (131072, b!"INPUT_OBJECT"), (262144, b!"INPUT_FIELD_DEFINITION")]

/-- `DirectiveLocation.String` (ast/ast.go:677-679). -/
def directiveLocationString (k : Int) : Bytes :=
  match directiveLocation.find k with
  | some s => s
  | none => []

/-- `DirectiveLocationsByName` (ast/ast.go:609-629), indexed by any string: 0 for a missing key. -/
def directiveLocationsByName (s : Bytes) : Int :=
  match directiveLocation.find? (fun e => e.2 == s) with
  | some e => e.1
  | none => 0

/-- `IsScalarTypeDefinition` (ast/ast.go:498-500); `IsScalarTypeExtension` (566-568) compares with the same number. -/
def isScalar (k : Int) : Bool := k == 0
/-- `IsObjectTypeDefinition`, `IsObjectTypeExtension` (ast/ast.go:503-505, 571-573). -/
def isObject (k : Int) : Bool := k == 1
/-- `IsInterfaceTypeDefinition`, `IsInterfaceTypeExtension` (ast/ast.go:508-510, 576-578). -/
def isInterface (k : Int) : Bool := k == 2
/-- `IsUnionTypeDefinition`, `IsUnionTypeExtension` (ast/ast.go:513-515, 581-583). -/
def isUnion (k : Int) : Bool := k == 3
/-- `IsEnumTypeDefinition`, `IsEnumTypeExtension` (ast/ast.go:518-520, 586-588). -/
def isEnum (k : Int) : Bool := k == 4
/-- `IsInputObjectTypeDefinition`, `IsInputObjectTypeExtension` (ast/ast.go:523-525, 591-593). -/
def isInputObject (k : Int) : Bool := k == 5

/-- `ExecutableDefinition` (ast/ast.go:112-116): two pointers, of which either may be nil whatever the kind, and a kind. -/
structure Executable where
  fragment : Option FragDef
  operation : Option OpDef
  kind : Int

/-- `ExecutableDefinition.String` (ast/ast.go:118-127).  Reading the name through a nil pointer panics. -/
def Executable.string (d : Executable) : Out Bytes :=
  if d.kind = 1 then
    match d.fragment with
    | some f => .ret f.name
    | none => .panic
  else if d.kind = 0 then
    match d.operation with
    | some o => .ret o.name
    | none => .panic
  else .ret b!"UnnamedExecutableDefinition"

/-- The `ExecutableDefinition` that the parser makes of an operation or a fragment (language/parser.go:210-219, 269-277); other
definitions have none (`nil`). -/
def executable : Body → Option Executable
  | .op o => some { fragment := none, operation := some o, kind := 0 }
  | .frag f => some { fragment := some f, operation := none, kind := 1 }
  | _ => none

end GQL.Names

namespace GQL

/-- The number of the constant (ast/ast.go:137-141). -/
def OpKind.code : OpKind → Int
  | .query => 0 | .mutation => 1 | .subscription => 2

/-- The number of the constant (ast/ast.go:417-424, 543-550). -/
def TypeKind.code : TypeKind → Int
  | .scalar => 0 | .object => 1 | .interface => 2 | .union => 3 | .enum => 4 | .inputObject => 5

/-- The number of the constant (language/token.go:4-22). -/
def TokenKind.code : TokenKind → Int
  | .illegal => -1 | .eof => 0 | .punctuator => 1 | .name => 2 | .intValue => 3 | .floatValue => 4 | .stringValue => 5

end GQL
