/-
Model of validation/utils.go, the functions about types.

`==` on `ast.Type` compares the `ListType` pointers: whether two item types are the same pointer is a parameter `same`, which may hold for equal types
only.  Loops and recursions have a bound `fuel`; `.oof` says that it is not enough.
-/
import Verif.Model.Schema

namespace GQL

/-- Which pointers to item types are equal: only pointers to equal types can be. -/
structure Pointers where
  same : Ty → Ty → Bool
  sound : ∀ a b, same a b = true → a = b

/-- `a == b` for two values of type `ast.Type` (ast/ast.go:312-317). -/
def Ty.goEq (ptr : Pointers) : Ty → Ty → Bool
  | .named n x, .named m y => n == m && x == y
  | .list t x, .list u y => ptr.same t u && x == y
  | .listNil x, .listNil y => x == y
  | _, _ => false

/-- `t.NonNullable = false`. -/
def Ty.nullable : Ty → Ty
  | .named n _ => .named n false
  | .list t _ => .list t false
  | .listNil _ => .listNil false

/-- `t.Kind == ast.TypeKindList`. -/
def Ty.isList : Ty → Bool
  | .named .. => false
  | _ => true

/-- `*t.ListType`: a panic if it is nil. -/
def Ty.item : Ty → Out Ty
  | .list t _ => .ret t
  | _ => .panic

/-- The kind of the type definition with that name; `none` if there is none (utils.go:32, 44, 53, 62, 75). -/
def Schema.kindOf (s : Schema) (n : Bytes) : Option TypeKind := (s.types.lookup n).map (·.kind)

/-- `IsInputType` (validation/utils.go:27-40). -/
def isInputType (s : Schema) : Ty → Out Bool
  | .list t _ => isInputType s t
  | .listNil _ => .panic
  | .named n _ => .ret (match s.kindOf n with
    | some .scalar | some .enum | some .inputObject => true
    | _ => false)

/-- `IsOutputType` (validation/utils.go:70-83). -/
def isOutputType (s : Schema) : Ty → Out Bool
  | .list t _ => isOutputType s t
  | .listNil _ => .panic
  | .named n _ => .ret (match s.kindOf n with
    | some .scalar | some .object | some .interface | some .union | some .enum => true
    | _ => false)

/-- `IsInterfaceType` (validation/utils.go:43-49). -/
def isInterfaceType (s : Schema) (t : Ty) : Bool :=
  match s.kindOf t.namedType with
  | some k => k == .interface
  | none => false

/-- `IsObjectType` (validation/utils.go:52-58). -/
def isObjectType (s : Schema) (t : Ty) : Bool :=
  match s.kindOf t.namedType with
  | some k => k == .object
  | none => false

/-- `IsUnionType` (validation/utils.go:61-67). -/
def isUnionType (s : Schema) (t : Ty) : Bool :=
  match s.kindOf t.namedType with
  | some k => k == .union
  | none => false

/-- `IsAbstractType` (validation/utils.go:22-24). -/
def isAbstractType (s : Schema) (t : Ty) : Bool := isInterfaceType s t || isUnionType s t

/-- `IsUnionMemberType` (validation/utils.go:194-210). -/
def isUnionMemberType (s : Schema) (t : Ty) : Bool :=
  if t.nonNull then false
  else if t.isList then false
  else match s.kindOf t.namedType with
    | some k => k == .object
    | none => false

/-- The function `InterfaceImplementations` applies to each implemented interface (validation/utils.go:172-182).  `Add` puts the new type first. -/
def addImplementation (s : Schema) (typeName : Bytes) (m : GMap (List Ty)) (iface : Ty) : GMap (List Ty) :=
  if isInterfaceType s iface then mapSet m iface.namedType (.named typeName false :: (m.lookup iface.namedType).getD []) else m

/-- The body of the loop of `InterfaceImplementations` (validation/utils.go:171-187). -/
def implementationStep (s : Schema) (m : GMap (List Ty)) (p : Bytes × TypeDef) : GMap (List Ty) :=
  match p.2.kind with
  | .object => p.2.ifaces.foldl (addImplementation s p.1) m
  | .interface => if (m.lookup p.1).isSome then m else mapSet m p.1 []
  | _ => m

/-- `InterfaceImplementations` (validation/utils.go:159-191). -/
def interfaceImplementations (ord : Order TypeDef) (s : Schema) : GMap (List Ty) := (ord.arrange s.types).foldl (implementationStep s) []

/-- `PossibleTypes` (validation/utils.go:146-156). -/
def possibleTypes (ord : Order TypeDef) (s : Schema) (abstractType : Ty) : List Ty :=
  if isUnionType s abstractType then
    match s.types.lookup abstractType.namedType with
    | some u => u.members
    | none => []
  else ((interfaceImplementations ord s).lookup abstractType.namedType).getD []

/-- The loop of `IsPossibleType` (validation/utils.go:135-140): `rest` is what the generator has still to give, `iter` its counter (lists.go:743-755),
`len` the length of the list. -/
def possibleLoop (ptr : Pointers) (target : Ty) (len : Int) : Nat → List Ty → Int → Out Bool
  | 0, _, _ => .oof
  | fuel + 1, rest, iter =>
    let p : Ty × Int := match rest with
      | [] => (.named [] false, -1)
      | t :: _ => (t, iter)
    if p.2 < len then
      if Ty.goEq ptr p.1 target then .ret true
      else possibleLoop ptr target len fuel rest.tail (if rest.isEmpty then iter else iter + 1)
    else .ret false

/-- `IsPossibleType` (validation/utils.go:129-143). -/
def isPossibleType (fuel : Nat) (ptr : Pointers) (ord : Order TypeDef) (s : Schema) (abstractType possibleType : Ty) : Out Bool :=
  let l := possibleTypes ord s abstractType
  possibleLoop ptr possibleType l.length fuel l 0

/-- `IsTypeSubTypeOf` (validation/utils.go:86-126). -/
def isTypeSubTypeOf (ptr : Pointers) (ord : Order TypeDef) (s : Schema) : Nat → Ty → Ty → Out Bool
  | 0, _, _ => .oof
  | fuel + 1, maybeSubType, superType =>
    if Ty.goEq ptr maybeSubType superType then .ret true
    else if superType.nonNull then
      if maybeSubType.nonNull then isTypeSubTypeOf ptr ord s fuel maybeSubType.nullable superType.nullable
      else .ret false
    else if maybeSubType.nonNull then isTypeSubTypeOf ptr ord s fuel maybeSubType.nullable superType
    else if superType.isList then
      if maybeSubType.isList then
        maybeSubType.item.bind fun t => superType.item.bind fun u => isTypeSubTypeOf ptr ord s fuel t u
      else .ret false
    else if maybeSubType.isList then .ret false
    else if isAbstractType s superType && isObjectType s maybeSubType then isPossibleType fuel ptr ord s superType maybeSubType
    else .ret false

end GQL
