/-
What the errors of the validation rules say.  An error is its text; it names no position and no path.

The texts are written out here and not taken from the model.
-/
import Verif.Model.Errors
import Verif.Spec.Words

namespace GQL.Spec.Says

/-- An error that says this and no more. -/
def only (text : Bytes) : GErr := { message := text, locations := [], path := [] }

/-- A type reference as it is written; a list type that has lost its item type is written as nothing. -/
def reference : Ty → Bytes
  | .named n b => n ++ if b then b!"!" else []
  | .list t b => b!"[" ++ reference t ++ b!"]" ++ if b then b!"!" else []
  | .listNil b => if b then b!"!" else []

def notExecutable (n : Bytes) : GErr := only (b!"The \"" ++ n ++ b!"\" definition is not executable.")
def notAlone : GErr := only b!"This anonymous operation must be the only defined operation."
def unknownType (n : Bytes) : GErr := only (b!"Unknown type \"" ++ n ++ b!"\".")
def unusedVariable (v : Bytes) (operation : Bytes) : GErr :=
  only (b!"Variable " ++ v ++ b!" is never used" ++ if operation = [] then [] else b!" in operation " ++ operation)
def unknownDirective (n : Bytes) : GErr := only (b!"Unknown directive \"" ++ n ++ b!"\".")
def misplacedDirective (n : Bytes) (l : DirLoc) : GErr := only (b!"Directive \"" ++ n ++ b!"\" may not be used on " ++ place l ++ b!".")
def repeatedDirective (n : Bytes) : GErr := only (b!"The directive \"" ++ n ++ b!"\" can only be used once at this location.")
def repeatedOperation (n : Bytes) : GErr := only (b!"There can be only one operation named " ++ n ++ b!".")
def repeatedArgument (n : Bytes) : GErr := only (b!"There can be only one argument named \"" ++ n ++ b!"\".")
def repeatedInputField (n : Bytes) : GErr := only (b!"There can be only one input field named \"" ++ n ++ b!"\".")
def existingType (n : Bytes) : GErr :=
  only (b!"Type " ++ n ++ b!" already exists in the schema. It cannot also be defined in this type definition.")
def repeatedType (n : Bytes) : GErr := only (b!"There can be only one type named " ++ n ++ b!".")
def existingDirective (n : Bytes) : GErr := only (b!"Directive \"" ++ n ++ b!"\" already exists in the schema. It cannot be redefined.")
def repeatedDirectiveName (n : Bytes) : GErr := only (b!"There can be only one directive named \"" ++ n ++ b!"\".")
def schemaInExtension : GErr := only b!"Cannot define a new schema within a schema extension."
def repeatedSchema : GErr := only b!"Must provide only one schema definition."
def unknownArgument (a d : Bytes) : GErr := only (b!"Unknown argument \"" ++ a ++ b!"\" on directive \"" ++ d ++ b!"\".")
def missingArgument (d a : Bytes) (t : Ty) : GErr :=
  only (b!"Directive \"" ++ d ++ b!"\" argument \"" ++ a ++ b!"\" of type \"" ++ reference t ++ b!"\" is required, but it was not provided")
def extendsUnknown (n : Bytes) : GErr := only (b!"Cannot extend type \"" ++ n ++ b!"\" because it is not defined.")
/-- The kind and the word "type" are run together. -/
def extendsOther (n : Bytes) (k : TypeKind) : GErr := only (b!"Cannot extend non-" ++ kind k ++ b!"type \"" ++ n ++ b!"\".")
def twoUnderscores (n : Bytes) : GErr := only (b!"Name \"" ++ n ++ b!"\" must not begin with \"__\" (two underscores)")
def existingRoot (o : OpKind) : GErr := only (b!"Type for " ++ operation o ++ b!" already defined in the schema. It cannot be redefined.")
def repeatedRoot (o : OpKind) : GErr := only (b!"There can be only one " ++ operation o ++ b!" type in schema.")
def reservedName (n : Bytes) : GErr := only (b!"Name \"" ++ n ++ b!"\" must not begin with \"__\" which is reserved by GraphQL introspection.")
def invalidName (n : Bytes) : GErr := only (b!"Name must match /^[_a-zA-Z][_a-zA-Z0-9]*$/ but \"" ++ n ++ b!"\" does not.")

end GQL.Spec.Says
