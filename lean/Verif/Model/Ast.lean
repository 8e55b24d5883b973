/-
Model of ast/ast.go.

Strings are byte lists.  A Go linked list (`*Arguments`, `*Directives`, ...) is a `List`, the nil
pointer being the empty list; Model/Heap and Props/C25 justify this.  A `Kind` field together with
the fields it selects is an inductive type.  The `Path` of a selection is left out: the parser
never sets it.
-/
import Verif.Model.Basic

namespace GQL

/-- `Location` (ast/ast.go:4-7). -/
structure Location where
  line : Nat
  col : Int
  deriving DecidableEq, Repr, Inhabited

/-- `DirectiveLocation` constants (ast/ast.go:653-673), in order. -/
inductive DirLoc where
  | query | mutation | subscription | field | fragmentDefinition | fragmentSpread | inlineFragment
  | variableDefinition | schema | scalar | object | fieldDefinition | argumentDefinition | interface
  | union | enum | enumValue | inputObject | inputFieldDefinition
  deriving DecidableEq, Repr, Inhabited

/-- All of them. -/
def DirLoc.all : List DirLoc :=
  [.query, .mutation, .subscription, .field, .fragmentDefinition, .fragmentSpread, .inlineFragment,
   .variableDefinition, .schema, .scalar, .object, .fieldDefinition, .argumentDefinition, .interface,
   .union, .enum, .enumValue, .inputObject, .inputFieldDefinition]

/-- The bit of a location: `1 << iota` (ast/ast.go:653-673). -/
def DirLoc.bit : DirLoc → Nat
  | .query => 1 | .mutation => 2 | .subscription => 4 | .field => 8 | .fragmentDefinition => 16
  | .fragmentSpread => 32 | .inlineFragment => 64 | .variableDefinition => 128 | .schema => 256
  | .scalar => 512 | .object => 1024 | .fieldDefinition => 2048 | .argumentDefinition => 4096
  | .interface => 8192 | .union => 16384 | .enum => 32768 | .enumValue => 65536
  | .inputObject => 131072 | .inputFieldDefinition => 262144

/-- `NamesByDirectiveLocations` (ast/ast.go:631-651). -/
def DirLoc.name : DirLoc → Bytes
  | .query => b!"QUERY" | .mutation => b!"MUTATION" | .subscription => b!"SUBSCRIPTION"
  | .field => b!"FIELD" | .fragmentDefinition => b!"FRAGMENT_DEFINITION"
  | .fragmentSpread => b!"FRAGMENT_SPREAD" | .inlineFragment => b!"INLINE_FRAGMENT"
  | .variableDefinition => b!"VARIABLE_DEFINITION" | .schema => b!"SCHEMA" | .scalar => b!"SCALAR"
  | .object => b!"OBJECT" | .fieldDefinition => b!"FIELD_DEFINITION"
  | .argumentDefinition => b!"ARGUMENT_DEFINITION" | .interface => b!"INTERFACE" | .union => b!"UNION"
  | .enum => b!"ENUM" | .enumValue => b!"ENUM_VALUE" | .inputObject => b!"INPUT_OBJECT"
  | .inputFieldDefinition => b!"INPUT_FIELD_DEFINITION"

/-- `DirectiveLocationsByName` (ast/ast.go:609-629); a missing key gives 0, as in Go. -/
def locByName (n : Bytes) : Nat :=
  match DirLoc.all.find? (fun l => l.name == n) with
  | some l => l.bit
  | none => 0

/-- `Type` (ast/ast.go:312-317): a named type, a list type, or a list type whose `ListType` is nil. -/
inductive Ty where
  | named (name : Bytes) (nonNull : Bool)
  | list (item : Ty) (nonNull : Bool)
  | listNil (nonNull : Bool)
  deriving DecidableEq, Repr, Inhabited

/-- `Value` (ast/ast.go:263-274) and `ObjectField` (276-279).  A float is its 64-bit pattern. -/
inductive Value where
  | var (name : Bytes)
  | int (i : Int)
  | float (bits : Nat)
  | str (s : Bytes)
  | bool (b : Bool)
  | null
  | enum (name : Bytes)
  | list (vs : List Value)
  | obj (fs : List (Bytes × Value))
  deriving Repr, Inhabited

/-- `Argument` (ast/ast.go:207-210). -/
structure Argument where
  name : Bytes
  value : Value
  deriving Repr, Inhabited

/-- `Directive` (ast/ast.go:338-342). -/
structure Directive where
  name : Bytes
  args : List Argument
  loc : DirLoc
  deriving Repr, Inhabited

/-- `Selection` (ast/ast.go:191-201). -/
inductive Selection where
  | field (alias name : Bytes) (args : List Argument) (dirs : List Directive) (sels : List Selection)
  | spread (name : Bytes) (dirs : List Directive)
  | inline (cond : Option Ty) (dirs : List Directive) (sels : List Selection)
  deriving Repr, Inhabited

/-- `VariableDefinition` (ast/ast.go:284-288). -/
structure VarDef where
  name : Bytes
  type : Ty
  default : Option Value
  deriving Repr, Inhabited

/-- `OperationDefinitionKind` (ast/ast.go:137-141). -/
inductive OpKind where
  | query | mutation | subscription
  deriving DecidableEq, Repr, Inhabited

/-- `OperationDefinition` (ast/ast.go:158-164). -/
structure OpDef where
  kind : OpKind
  name : Bytes
  vars : List VarDef
  dirs : List Directive
  sels : List Selection
  deriving Repr, Inhabited

/-- `FragmentDefinition` (ast/ast.go:129-134). -/
structure FragDef where
  name : Bytes
  cond : Ty
  dirs : List Directive
  sels : List Selection
  deriving Repr, Inhabited

/-- `OperationTypeDefinition` (ast/ast.go:408-411). -/
structure OpTypeDef where
  type : Ty
  op : OpKind
  deriving DecidableEq, Repr, Inhabited

/-- `SchemaDefinition` and `SchemaExtension` (ast/ast.go:397-406). -/
structure SchemaDef where
  dirs : List Directive
  ops : List OpTypeDef
  deriving Repr, Inhabited

/-- `InputValueDefinition` (ast/ast.go:598-604). -/
structure InputVal where
  desc : Bytes
  name : Bytes
  type : Ty
  dirs : List Directive
  default : Option Value
  deriving Repr, Inhabited

/-- `FieldDefinition` (ast/ast.go:527-533). -/
structure FieldDef where
  desc : Bytes
  name : Bytes
  args : List InputVal
  type : Ty
  dirs : List Directive
  deriving Repr, Inhabited

/-- `EnumValueDefinition` (ast/ast.go:535-539). -/
structure EnumVal where
  desc : Bytes
  dirs : List Directive
  value : Bytes
  deriving Repr, Inhabited

/-- `TypeDefinitionKind` and `TypeExtensionKind` (ast/ast.go:417-424, 543-550): the same numbers in
the same order. -/
inductive TypeKind where
  | scalar | object | interface | union | enum | inputObject
  deriving DecidableEq, Repr, Inhabited

/-- `TypeDefinition` (ast/ast.go:448-458) and `TypeExtension` (554-563, without description). -/
structure TypeDef where
  desc : Bytes := []
  name : Bytes
  kind : TypeKind
  ifaces : List Ty := []
  dirs : List Directive := []
  fields : List FieldDef := []
  members : List Ty := []
  values : List EnumVal := []
  inputs : List InputVal := []
  deriving Repr, Inhabited

/-- `DirectiveDefinition` (ast/ast.go:681-686). -/
structure DirDef where
  desc : Bytes
  name : Bytes
  args : List InputVal
  locs : Nat
  deriving Repr, Inhabited

/-- `ExecutableDefinition`, `TypeSystemDefinition` and `TypeSystemExtension` with their kinds
(ast/ast.go:55-85, 95-116, 347-391). -/
inductive Body where
  | op (o : OpDef)
  | frag (f : FragDef)
  | schema (s : SchemaDef)
  | type (t : TypeDef)
  | directive (d : DirDef)
  | schemaExt (s : SchemaDef)
  | typeExt (t : TypeDef)
  deriving Repr, Inhabited

/-- `Definition` (ast/ast.go:79-85). -/
structure Definition where
  loc : Location
  body : Body
  deriving Repr, Inhabited

/-- `Document` (ast/ast.go:44-53). -/
structure Document where
  defs : List Definition := []
  operations : Nat := 0
  fragments : Nat := 0
  directives : Nat := 0
  schemas : Nat := 0
  types : Nat := 0
  schemaExts : Nat := 0
  typeExts : Nat := 0
  deriving Repr, Inhabited

end GQL
