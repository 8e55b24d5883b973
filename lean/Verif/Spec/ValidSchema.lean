/-
Valid schemas, after section 3 of the specification (June 2018), "Type Validation".  One definition for each requirement.
-/
import Verif.Spec.Schema

namespace GQL.Spec

/-- A name that a user may give. -/
def UserName (n : Bytes) : Prop := ValidName n ∧ ¬ Reserved n

/-- The root type is an object type of the schema. -/
def RootObject (s : Schema) (t : Ty) : Prop := IsKind s (tyName t) .object

/-- The field `g` of an object type is what the field `f` of an interface asks for: its type is a subtype. -/
def Provides (s : Schema) (g f : FieldDef) : Prop := g.name = f.name ∧ Subtype s g.type f.type

/-- The types that have fields: objects and interfaces. -/
def HasFields (d : TypeDef) : Prop := d.kind = .object ∨ d.kind = .interface

/-- What the code checks. -/
structure SoundSchema (s : Schema) : Prop where
  /-- There is a query root type, which is an object type. -/
  query : ∃ t, s.queryType = some t ∧ RootObject s t
  /-- A mutation (subscription) root type that is in the schema is an object type. -/
  mutation : ∀ t d, s.mutationType = some t → s.types.lookup (tyName t) = some d → d.kind = .object
  subscription : ∀ t d, s.subscriptionType = some t → s.types.lookup (tyName t) = some d → d.kind = .object
  /-- Names of types are names, and not reserved. -/
  typeNames : ∀ n d, (n, d) ∈ s.types → UserName n ∨ n ∈ introspectionNames
  /-- Objects and interfaces have fields … -/
  someField : ∀ n d, (n, d) ∈ s.types → HasFields d → d.fields ≠ []
  /-- … whose names are names, and not reserved, and whose types are output types. -/
  fields : ∀ n d, (n, d) ∈ s.types → HasFields d → ∀ f ∈ d.fields, UserName f.name ∧ OutputType s f.type
  /-- The arguments of a field have different names, which are not reserved, and their types are input types. -/
  arguments : ∀ n d, (n, d) ∈ s.types → HasFields d → ∀ f ∈ d.fields,
    (f.args.map (·.name)).Nodup ∧ ∀ a ∈ f.args, UserName a.name ∧ InputType s a.type
  /-- Objects implement interfaces only, each one once, … -/
  interfaces : ∀ n d, (n, d) ∈ s.types → d.kind = .object → (∀ i ∈ d.ifaces, IsKind s (tyName i) .interface) ∧ (d.ifaces.map tyName).Nodup
  /-- … and provide their fields: the first field of that name is of a subtype. -/
  implementation : ∀ n d, (n, d) ∈ s.types → d.kind = .object → ∀ t ∈ d.ifaces, ∀ i, s.types.lookup (tyName t) = some i → ∀ f ∈ i.fields,
    ∃ g, d.fields.find? (fun g => g.name == f.name) = some g ∧ Provides s g f
  /-- Names of directives and of their arguments are names, and not reserved; the arguments have different names. -/
  directives : ∀ n d, (n, d) ∈ s.directives → UserName n ∧ (d.args.map (·.name)).Nodup ∧ ∀ a ∈ d.args, UserName a.name

/-! What the code does not check. -/

/-- A non-null type. -/
def Required (t : Ty) : Prop := match t with
  | .named _ nn => nn = true
  | .list _ nn => nn = true
  | .listNil nn => nn = true

/-- A mutation root type is in the schema. -/
def MutationKnown (s : Schema) : Prop := ∀ t, s.mutationType = some t → RootObject s t
/-- The fields of a type have different names. -/
def FieldsOnce (s : Schema) : Prop := ∀ n d, (n, d) ∈ s.types → (d.fields.map (·.name)).Nodup
/-- The arguments of an interface field are arguments of the field of the object type, too. -/
def ArgumentsProvided (s : Schema) : Prop := ∀ n d, (n, d) ∈ s.types → d.kind = .object → ∀ t ∈ d.ifaces, ∀ i, s.types.lookup (tyName t) = some i →
  ∀ f ∈ i.fields, ∀ g ∈ d.fields, g.name = f.name → ∀ a ∈ f.args, ∃ b ∈ g.args, b.name = a.name
/-- Further arguments of the field of the object type are not required: their types are not non-null types. -/
def NoArgumentsRequired (s : Schema) : Prop := ∀ n d, (n, d) ∈ s.types → d.kind = .object → ∀ t ∈ d.ifaces, ∀ i, s.types.lookup (tyName t) = some i →
  ∀ f ∈ i.fields, ∀ g ∈ d.fields, g.name = f.name → ∀ b ∈ g.args, Required b.type → ∃ a ∈ f.args, a.name = b.name
/-- Members of unions are object types. -/
def MembersObjects (s : Schema) : Prop := ∀ n d, (n, d) ∈ s.types → d.kind = .union → ∀ m ∈ d.members, IsKind s (tyName m) .object
/-- Unions have members, each one once. -/
def SomeMember (s : Schema) : Prop := ∀ n d, (n, d) ∈ s.types → d.kind = .union → d.members ≠ []
def MembersOnce (s : Schema) : Prop := ∀ n d, (n, d) ∈ s.types → d.kind = .union → (d.members.map tyName).Nodup
/-- Enumerations have values, each one once. -/
def SomeValue (s : Schema) : Prop := ∀ n d, (n, d) ∈ s.types → d.kind = .enum → d.values ≠ []
def ValuesOnce (s : Schema) : Prop := ∀ n d, (n, d) ∈ s.types → d.kind = .enum → (d.values.map (·.value)).Nodup
/-- Input objects have fields, each one once, of input types. -/
def SomeInput (s : Schema) : Prop := ∀ n d, (n, d) ∈ s.types → d.kind = .inputObject → d.inputs ≠ []
def InputsOnce (s : Schema) : Prop := ∀ n d, (n, d) ∈ s.types → d.kind = .inputObject → (d.inputs.map (·.name)).Nodup
def InputsInput (s : Schema) : Prop := ∀ n d, (n, d) ∈ s.types → d.kind = .inputObject → ∀ f ∈ d.inputs, InputType s f.type
/-- Arguments of directives are of input types. -/
def DirectiveInputs (s : Schema) : Prop := ∀ n d, (n, d) ∈ s.directives → ∀ a ∈ d.args, InputType s a.type

/-- The specification's requirements. -/
structure ValidSchema (s : Schema) : Prop extends SoundSchema s where
  mutationKnown : MutationKnown s
  fieldsOnce : FieldsOnce s
  argumentsProvided : ArgumentsProvided s
  noArgumentsRequired : NoArgumentsRequired s
  membersObjects : MembersObjects s
  someMember : SomeMember s
  membersOnce : MembersOnce s
  someValue : SomeValue s
  valuesOnce : ValuesOnce s
  someInput : SomeInput s
  inputsOnce : InputsOnce s
  inputsInput : InputsInput s
  directiveInputs : DirectiveInputs s

end GQL.Spec
