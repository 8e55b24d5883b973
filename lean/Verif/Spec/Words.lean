/-
The words for operations, sorts of types and directive locations.
-/
import Verif.Model.Ast

namespace GQL.Spec.Says

/-- What an operation is called. -/
def operation : OpKind → Bytes
  | .query => b!"query"
  | .mutation => b!"mutation"
  | .subscription => b!"subscription"

/-- What a sort of type is called. -/
def kind : TypeKind → Bytes
  | .scalar => b!"scalar"
  | .object => b!"object"
  | .interface => b!"interface"
  | .union => b!"union"
  | .enum => b!"enum"
  | .inputObject => b!"input object"

/-- What a directive location is called. -/
def place : DirLoc → Bytes
  | .query => b!"QUERY"
  | .mutation => b!"MUTATION"
  | .subscription => b!"SUBSCRIPTION"
  | .field => b!"FIELD"
  | .fragmentDefinition => b!"FRAGMENT_DEFINITION"
  | .fragmentSpread => b!"FRAGMENT_SPREAD"
  | .inlineFragment => b!"INLINE_FRAGMENT"
  | .variableDefinition => b!"VARIABLE_DEFINITION"
  | .schema => b!"SCHEMA"
  | .scalar => b!"SCALAR"
  | .object => b!"OBJECT"
  | .fieldDefinition => b!"FIELD_DEFINITION"
  | .argumentDefinition => b!"ARGUMENT_DEFINITION"
  | .interface => b!"INTERFACE"
  | .union => b!"UNION"
  | .enum => b!"ENUM"
  | .enumValue => b!"ENUM_VALUE"
  | .inputObject => b!"INPUT_OBJECT"
  | .inputFieldDefinition => b!"INPUT_FIELD_DEFINITION"

end GQL.Spec.Says
