/-
Model of graphql/errors.go (the type and its constructor) and validation/errors.go (the messages).

The `line, col` parameters of the constructors are not used by the code and left out.
-/
import Verif.Model.Ast

namespace GQL

/-- `PathNode` (ast/ast.go:19-24): a string or a number. -/
inductive PathNode where
  | str (s : Bytes)
  | int (i : Int)
  deriving DecidableEq, Repr, Inhabited

/-- `Error` (graphql/errors.go:12-16).  The linked lists are lists. -/
structure GErr where
  message : Bytes
  locations : List Location := []
  path : List PathNode := []
  deriving DecidableEq, Repr, Inhabited

/-- `NewError` (graphql/errors.go:19-23). -/
def newError (m : Bytes) : GErr := { message := m }

/-- `OperationDefinitionKind.String` (ast/ast.go:145-156). -/
def OpKind.str : OpKind → Bytes
  | .query => b!"query"
  | .mutation => b!"mutation"
  | .subscription => b!"subscription"

/-- `TypeDefinitionKind.String` (ast/ast.go:429-446). -/
def TypeKind.str : TypeKind → Bytes
  | .scalar => b!"scalar"
  | .object => b!"object"
  | .interface => b!"interface"
  | .union => b!"union"
  | .enum => b!"enum"
  | .inputObject => b!"input object"

/-- `nonNullable` (ast/ast.go:327-332). -/
def nonNullable (isNN : Bool) (s : Bytes) : Bytes := if isNN then s ++ b!"!" else s

/-- `Type.String` (ast/ast.go:319-325).  A list type without item type prints its (empty) name. -/
def Ty.str : Ty → Bytes
  | .named n nn => nonNullable nn n
  | .list t nn => nonNullable nn (b!"[" ++ t.str ++ b!"]")
  | .listNil nn => nonNullable nn []

/-- validation/errors.go:11-16. -/
def anonOperationNotAloneError : GErr := newError b!"This anonymous operation must be the only defined operation."
/-- validation/errors.go:19-24. -/
def canNotDefineSchemaWithinExtensionError : GErr := newError b!"Cannot define a new schema within a schema extension."
/-- validation/errors.go:27-29. -/
def duplicateArgError (argName : Bytes) : GErr := newError (b!"There can be only one argument named \"" ++ argName ++ b!"\".")
/-- validation/errors.go:32-37. -/
def duplicateDirectiveError (directiveName : Bytes) : GErr :=
  newError (b!"The directive \"" ++ directiveName ++ b!"\" can only be used once at this location.")
/-- validation/errors.go:40-45. -/
def duplicateDirectiveNameError (directiveName : Bytes) : GErr :=
  newError (b!"There can be only one directive named \"" ++ directiveName ++ b!"\".")
/-- validation/errors.go:64-69. -/
def duplicateInputFieldError (fieldName : Bytes) : GErr :=
  newError (b!"There can be only one input field named \"" ++ fieldName ++ b!"\".")
/-- validation/errors.go:72-74. -/
def duplicateOperationNameError (operationName : Bytes) : GErr :=
  newError (b!"There can be only one operation named " ++ operationName ++ b!".")
/-- validation/errors.go:77-82. -/
def duplicateOperationTypeError (operation : Bytes) : GErr :=
  newError (b!"There can be only one " ++ operation ++ b!" type in schema.")
/-- validation/errors.go:85-90. -/
def duplicateTypeNameError (typeName : Bytes) : GErr :=
  newError (b!"There can be only one type named " ++ typeName ++ b!".")
/-- validation/errors.go:93-98. -/
def existedDirectiveNameError (directiveName : Bytes) : GErr :=
  newError (b!"Directive \"" ++ directiveName ++ b!"\" already exists in the schema. It cannot be redefined.")
/-- validation/errors.go:101-106. -/
def existedOperationTypeError (operation : Bytes) : GErr :=
  newError (b!"Type for " ++ operation ++ b!" already defined in the schema. It cannot be redefined.")
/-- validation/errors.go:109-114. -/
def existedTypeNameError (typeName : Bytes) : GErr :=
  newError (b!"Type " ++ typeName ++ b!" already exists in the schema. It cannot also be defined in this type definition.")
/-- validation/errors.go:117-119 (there is no blank before "type"). -/
def extendingDifferentTypeKindError (typeName kind : Bytes) : GErr :=
  newError (b!"Cannot extend non-" ++ kind ++ b!"type \"" ++ typeName ++ b!"\".")
/-- validation/errors.go:122-124. -/
def extendingUnknownTypeError (typeName : Bytes) : GErr :=
  newError (b!"Cannot extend type \"" ++ typeName ++ b!"\" because it is not defined.")
/-- validation/errors.go:127-132. -/
def invalidNameError (name : Bytes) : GErr :=
  newError (b!"Name must match /^[_a-zA-Z][_a-zA-Z0-9]*$/ but \"" ++ name ++ b!"\" does not.")
/-- validation/errors.go:135-140. -/
def misplacedDirectiveError (directiveName : Bytes) (location : DirLoc) : GErr :=
  newError (b!"Directive \"" ++ directiveName ++ b!"\" may not be used on " ++ location.name ++ b!".")
/-- validation/errors.go:143-148. -/
def missingDirectiveArgError (directiveName argName typeName : Bytes) : GErr :=
  newError (b!"Directive \"" ++ directiveName ++ b!"\" argument \"" ++ argName ++ b!"\" of type \"" ++ typeName ++
    b!"\" is required, but it was not provided")
/-- validation/errors.go:159-164. -/
def nameStartsWithTwoUnderscoresError (name : Bytes) : GErr :=
  newError (b!"Name \"" ++ name ++ b!"\" must not begin with \"__\" (two underscores)")
/-- validation/errors.go:167-172. -/
def nonExecutableDefinitionError (name : Bytes) : GErr := newError (b!"The \"" ++ name ++ b!"\" definition is not executable.")
/-- validation/errors.go:175-180. -/
def reservedNameError (name : Bytes) : GErr :=
  newError (b!"Name \"" ++ name ++ b!"\" must not begin with \"__\" which is reserved by GraphQL introspection.")
/-- validation/errors.go:183-188. -/
def schemaDefinitionNotAloneError : GErr := newError b!"Must provide only one schema definition."
/-- validation/errors.go:199-204. -/
def unknownDirectiveArgError (argName directiveName : Bytes) : GErr :=
  newError (b!"Unknown argument \"" ++ argName ++ b!"\" on directive \"" ++ directiveName ++ b!"\".")
/-- validation/errors.go:207-212. -/
def unknownDirectiveError (directiveName : Bytes) : GErr := newError (b!"Unknown directive \"" ++ directiveName ++ b!"\".")
/-- validation/errors.go:215-220. -/
def unknownTypeError (typeName : Bytes) : GErr := newError (b!"Unknown type \"" ++ typeName ++ b!"\".")
/-- `unusedVariableMessage` (validation/errors.go:231-237). -/
def unusedVariableMessage (varName opName : Bytes) : Bytes :=
  if opName.length > 0 then b!"Variable " ++ varName ++ b!" is never used in operation " ++ opName
  else b!"Variable " ++ varName ++ b!" is never used"
/-- validation/errors.go:223-228. -/
def unusedVariableError (varName opName : Bytes) : GErr := newError (unusedVariableMessage varName opName)

end GQL
