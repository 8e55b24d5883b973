/-
Model of validation/schema_validate.go.
-/
import Verif.Model.Utils
import Verif.Model.Utf8

namespace GQL

/-- What can vary from run to run: the orders of iteration in `ValidateSchema`, and which item types are shared. -/
structure RunOrders where
  dirs : Order DirDef
  types : Order TypeDef
  /-- the iteration in `InterfaceImplementations`, for each pair of types compared -/
  impls : Ty → Ty → Order TypeDef
  ptr : Pointers

/-- The positions and runes that `for i, r := range s` gives; `fuel` is at least the length of `s`. -/
def rangeRunes : Nat → Nat → Bytes → List (Nat × Nat)
  | 0, _, _ => []
  | _, _, [] => []
  | fuel + 1, i, s => let (r, w) := decodeRune s; (i, r) :: rangeRunes fuel (i + w) (s.drop w)

/-- The loop of `validateName` (validation/schema_validate.go:235-243): does it end without finding a bad character? -/
def nameLoop : List (Nat × Nat) → Bool
  | [] => true
  | (i, r) :: rest =>
    if (97 ≤ r && r ≤ 122) || (65 ≤ r && r ≤ 90) || r == 95 then nameLoop rest
    else if i > 0 && (48 ≤ r && r ≤ 57) then nameLoop rest
    else false

/-- `validateName` (validation/schema_validate.go:222-244). -/
def validateName (c : Ctx) (name : Bytes) : Ctx :=
  if name.length = 0 then c.addError (invalidNameError name)
  else if name.length > 1 ∧ name[0]? = some 95 ∧ name[1]? = some 95 then c.addError (reservedNameError name)
  else if nameLoop (rangeRunes name.length 0 name) then c
  else c.addError (invalidNameError name)

/-- `isIntrospectionTypeName` (validation/schema_validate.go:247-268). -/
def isIntrospectionTypeName (n : Bytes) : Bool :=
  n == b!"__Schema" || n == b!"__Directive" || n == b!"__DirectiveLocation" || n == b!"__Type" || n == b!"__Field" || n == b!"__InputValue" ||
    n == b!"__EnumValue" || n == b!"__TypeKind"

/-- The part of `validateRootTypes` about the query type (validation/schema_validate.go:23-46). -/
def validateQueryRoot (c : Ctx) (s : Schema) : Ctx :=
  match s.queryType with
  | none => c.addError (newError b!"Query root type must be provided.")
  | some t =>
    match s.kindOf t.namedType with
    | some k => if k == .object then c else c.addError (newError b!"Query root type must be Object type.")
    | none => c.addError (newError b!"Query root type must be provided.")

/-- The parts of `validateRootTypes` about the other root types (validation/schema_validate.go:48-56, 58-66), which differ in the message. -/
def validateOptionalRoot (c : Ctx) (s : Schema) (root : Option Ty) (message : Bytes) : Ctx :=
  match root with
  | none => c
  | some t =>
    match s.kindOf t.namedType with
    | some k => if k == .object then c else c.addError (newError message)
    | none => c

/-- `validateRootTypes` (validation/schema_validate.go:22-67). -/
def validateRootTypes (c : Ctx) (s : Schema) : Ctx :=
  let c := validateQueryRoot c s
  let c := validateOptionalRoot c s s.mutationType b!"Mutation root type must be Object type if provided."
  validateOptionalRoot c s s.subscriptionType b!"Subscription root type must be Object type if provided."

/-- The function `validateDirectives` applies to each argument definition (validation/schema_validate.go:75-87); `p.2` is `argNames`. -/
def directiveArgStep (directiveName : Bytes) (p : Ctx × List Bytes) (a : InputVal) : Ctx × List Bytes :=
  if p.2.contains a.name then
    (p.1.addError (newError (b!"Argument @" ++ directiveName ++ b!"(" ++ a.name ++ b!":) can only be defined once.")), p.2)
  else (validateName p.1 a.name, a.name :: p.2)

/-- `validateDirectives` (validation/schema_validate.go:70-89). -/
def validateDirectives (ord : Order DirDef) (c : Ctx) (s : Schema) : Ctx :=
  (ord.arrange s.directives).foldl (fun c p => (p.2.args.foldl (directiveArgStep p.1) (validateName c p.1, [])).1) c

/-- The function `validateFields` applies to each argument definition of a field (validation/schema_validate.go:138-157). -/
def fieldArgStep (s : Schema) (typeName fieldName : Bytes) (p : Ctx × List Bytes) (a : InputVal) : Out (Ctx × List Bytes) :=
  let c := validateName p.1 a.name
  let c := if p.2.contains a.name
    then c.addError (newError (b!"Field argument " ++ typeName ++ b!"." ++ fieldName ++ b!"(" ++ a.name ++ b!":) can only be defined once."))
    else c
  (isInputType s a.type).bind fun ok =>
    .ret (if ok then c
      else c.addError (newError (b!"The type of " ++ typeName ++ b!"." ++ fieldName ++ b!"(" ++ a.name ++ b!":) must be Input Type.")), a.name :: p.2)

/-- A loop whose body may panic or not end. -/
def foldOut {α β : Type} (f : β → α → Out β) : List α → β → Out β
  | [], b => .ret b
  | a :: l, b => (f b a).bind (foldOut f l)

/-- The function `validateFields` applies to each field (validation/schema_validate.go:126-158). -/
def fieldStep (s : Schema) (typeName : Bytes) (c : Ctx) (f : FieldDef) : Out Ctx :=
  let c := validateName c f.name
  (isOutputType s f.type).bind fun ok =>
    let c := if ok then c else c.addError (newError (b!"The type of " ++ typeName ++ b!"." ++ f.name ++ b!" must be Output Type."))
    (foldOut (fieldArgStep s typeName f.name) f.args (c, [])).bind fun p => .ret p.1

/-- `validateFields` (validation/schema_validate.go:118-159). -/
def validateFields (c : Ctx) (s : Schema) (t : TypeDef) : Out Ctx :=
  let c := if t.fields.length = 0 then c.addError (newError (b!"Type " ++ t.name ++ b!" must define one or more fields.")) else c
  foldOut (fieldStep s t.name) t.fields c

/-- `FieldDefinitionByName` (ast/ast.go:480-495). -/
def TypeDef.fieldByName (t : TypeDef) (n : Bytes) : Option FieldDef :=
  if t.kind == .object || t.kind == .interface then t.fields.find? fun f => f.name == n else none

/-- The function `validateObjectImplementsInterface` applies to each field of the interface (validation/schema_validate.go:199-218). -/
def interfaceFieldStep (fuel : Nat) (run : RunOrders) (s : Schema) (t i : TypeDef) (c : Ctx) (f : FieldDef) : Out Ctx :=
  match t.fieldByName f.name with
  | none => .ret (c.addError (newError (b!"Interface field " ++ i.name ++ b!"." ++ f.name ++ b!" expected but " ++ t.name ++ b!" does not provide it.")))
  | some g =>
    (isTypeSubTypeOf run.ptr (run.impls g.type f.type) s fuel g.type f.type).bind fun ok =>
      .ret (if ok then c
        else c.addError (newError (b!"Interface field " ++ i.name ++ b!"." ++ f.name ++ b!" expects type " ++ f.type.str ++ b!" but " ++ t.name ++ b!"." ++
          g.name ++ b!" is type " ++ g.type.str)))

/-- `validateObjectImplementsInterface` (validation/schema_validate.go:193-219). -/
def validateObjectImplementsInterface (fuel : Nat) (run : RunOrders) (c : Ctx) (s : Schema) (t i : TypeDef) : Out Ctx :=
  foldOut (interfaceFieldStep fuel run s t i) i.fields c

/-- The function `validateObjectInterfaces` applies to each implemented type (validation/schema_validate.go:165-189).  A missing entry would be a nil
pointer; `IsInterfaceType` excludes that. -/
def objectInterfaceStep (fuel : Nat) (run : RunOrders) (s : Schema) (t : TypeDef) (p : Ctx × List Bytes) (i : Ty) : Out (Ctx × List Bytes) :=
  if !isInterfaceType s i then
    .ret (p.1.addError (newError (b!"Type " ++ t.name ++ b!" must only implement Interface types, it cannot implement " ++ i.namedType)), p.2)
  else if p.2.contains i.namedType then
    .ret (p.1.addError (newError (b!"Type " ++ t.name ++ b!" can only implement " ++ i.namedType ++ b!" once.")), p.2)
  else
    match s.types.lookup i.namedType with
    | none => .panic
    | some d => (validateObjectImplementsInterface fuel run p.1 s t d).bind fun c => .ret (c, i.namedType :: p.2)

/-- `validateObjectInterfaces` (validation/schema_validate.go:162-190). -/
def validateObjectInterfaces (fuel : Nat) (run : RunOrders) (c : Ctx) (s : Schema) (t : TypeDef) : Out Ctx :=
  (foldOut (objectInterfaceStep fuel run s t) t.ifaces (c, [])).bind fun p => .ret p.1

/-- The body of the loop of `validateTypes` (validation/schema_validate.go:94-114). -/
def typeStep (fuel : Nat) (run : RunOrders) (s : Schema) (c : Ctx) (p : Bytes × TypeDef) : Out Ctx :=
  let c := if !isIntrospectionTypeName p.1 then validateName c p.1 else c
  match p.2.kind with
  | .object => (validateFields c s p.2).bind fun c => validateObjectInterfaces fuel run c s p.2
  | .interface => validateFields c s p.2
  | _ => .ret c

/-- `validateTypes` (validation/schema_validate.go:92-115). -/
def validateTypes (fuel : Nat) (run : RunOrders) (c : Ctx) (s : Schema) : Out Ctx :=
  foldOut (typeStep fuel run s) (run.types.arrange s.types) c

/-- `ValidateSchema` (validation/schema_validate.go:9-19), as the context afterwards: the result is its list of errors, nil if that is empty. -/
def validateSchema (fuel : Nat) (run : RunOrders) (c : Ctx) (s : Schema) : Out Ctx :=
  validateTypes fuel run (validateDirectives run.dirs (validateRootTypes c s) s) s

end GQL
