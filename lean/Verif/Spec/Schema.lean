/-
What a schema has to satisfy, and the errors for what it does not, as multisets (the lists are compared up to order).
-/
import Verif.Spec.RuleErrors

namespace GQL.Spec
open Classical

/-- The maps of a schema have one entry for each name, and no entry for the empty name. -/
structure WellFormed (s : Schema) : Prop where
  types : (s.types.map (·.1)).Nodup
  directives : (s.directives.map (·.1)).Nodup
  named : s.types.lookup [] = none

/-- The type named `n` is there and of kind `k`. -/
def IsKind (s : Schema) (n : Bytes) (k : TypeKind) : Prop := ∃ d, s.types.lookup n = some d ∧ d.kind = k

/-! ### Names -/

def nameStartByte (b : Nat) : Prop := (97 ≤ b ∧ b ≤ 122) ∨ (65 ≤ b ∧ b ≤ 90) ∨ b = 95
def nameByte (b : Nat) : Prop := nameStartByte b ∨ (48 ≤ b ∧ b ≤ 57)

/-- `[_a-zA-Z][_a-zA-Z0-9]*` -/
def ValidName (n : Bytes) : Prop := ∃ b rest, n = b :: rest ∧ nameStartByte b ∧ ∀ x ∈ rest, nameByte x

/-- Begins with two underscores. -/
def Reserved (n : Bytes) : Prop := b!"__" <+: n

/-- The error for a name, if any. -/
noncomputable def nameErrors (n : Bytes) : List GErr :=
  if Reserved n then [Says.reservedName n] else if ValidName n then [] else [Says.invalidName n]

/-! ### Root types -/

/-- There is a root type, but no such type in the schema. -/
def RootMissing (s : Schema) (r : Option Ty) : Prop := ∀ t, r = some t → s.types.lookup (tyName t) = none

/-- There is a root type in the schema that is not an object. -/
def RootNotObject (s : Schema) (r : Option Ty) : Prop := ∃ t k, r = some t ∧ IsKind s (tyName t) k ∧ k ≠ .object

/-- The errors about root types. -/
noncomputable def rootTypeErrs (s : Schema) : List GErr :=
  (if RootMissing s s.queryType then [newError b!"Query root type must be provided."] else []) ++
  (if RootNotObject s s.queryType then [newError b!"Query root type must be Object type."] else []) ++
  (if RootNotObject s s.mutationType then [newError b!"Mutation root type must be Object type if provided."] else []) ++
  (if RootNotObject s s.subscriptionType then [newError b!"Subscription root type must be Object type if provided."] else [])

/-! ### Input and output types -/

/-- The type name inside the list and non-null wrappers; a list type may have lost its item type. -/
def innerName : Ty → Option Bytes
  | .named n _ => some n
  | .list t _ => innerName t
  | .listNil _ => none

def InputType (s : Schema) (t : Ty) : Prop :=
  ∃ n, innerName t = some n ∧ (IsKind s n .scalar ∨ IsKind s n .enum ∨ IsKind s n .inputObject)

def OutputType (s : Schema) (t : Ty) : Prop :=
  ∃ n, innerName t = some n ∧ (IsKind s n .scalar ∨ IsKind s n .object ∨ IsKind s n .interface ∨ IsKind s n .union ∨ IsKind s n .enum)

/-! ### Subtypes -/

/-- The object type `n` is a member of the union, or implements the interface, `m`. -/
def PossibleType (s : Schema) (m n : Bytes) : Prop :=
  ∃ d t, s.types.lookup m = some d ∧ s.types.lookup n = some t ∧ t.kind = .object ∧
    ((d.kind = .union ∧ .named n false ∈ d.members) ∨ (d.kind = .interface ∧ ∃ i ∈ t.ifaces, tyName i = m))

/-- `Subtype s a b`: a value of type `a` can stand where one of type `b` is expected.  A non-null type may stand for a nullable one, not the other
way round. -/
inductive Subtype (s : Schema) : Ty → Ty → Prop where
  | refl (t : Ty) : Subtype s t t
  | same (n : Bytes) {x y : Bool} (h : y = true → x = true) : Subtype s (.named n x) (.named n y)
  | possible {n m : Bytes} {x y : Bool} (h : y = true → x = true) (hp : PossibleType s m n) : Subtype s (.named n x) (.named m y)
  | list {t u : Ty} {x y : Bool} (h : y = true → x = true) (ht : Subtype s t u) : Subtype s (.list t x) (.list u y)

/-! ### Fields, arguments, interfaces -/

/-- The errors about the fields of an object or interface type. -/
noncomputable def fieldErrors (s : Schema) (t : TypeDef) : List GErr :=
  (if t.fields = [] then [newError (b!"Type " ++ t.name ++ b!" must define one or more fields.")] else []) ++
  t.fields.flatMap fun f =>
    nameErrors f.name ++
    (if OutputType s f.type then [] else [newError (b!"The type of " ++ t.name ++ b!"." ++ f.name ++ b!" must be Output Type.")]) ++
    (f.args.flatMap fun a => nameErrors a.name ++
      if InputType s a.type then []
      else [newError (b!"The type of " ++ t.name ++ b!"." ++ f.name ++ b!"(" ++ a.name ++ b!":) must be Input Type.")]) ++
    (repeated (f.args.map (·.name))).map fun a =>
      newError (b!"Field argument " ++ t.name ++ b!"." ++ f.name ++ b!"(" ++ a ++ b!":) can only be defined once.")

/-- The errors about object type `t` and interface `i`: fields that are missing or of another type. -/
noncomputable def implementationErrors (s : Schema) (t i : TypeDef) : List GErr :=
  i.fields.flatMap fun f => match t.fields.find? (fun g => g.name == f.name) with
    | none => [newError (b!"Interface field " ++ i.name ++ b!"." ++ f.name ++ b!" expected but " ++ t.name ++ b!" does not provide it.")]
    | some g =>
      if Subtype s g.type f.type then []
      else [newError (b!"Interface field " ++ i.name ++ b!"." ++ f.name ++ b!" expects type " ++ Says.reference f.type ++ b!" but " ++ t.name ++ b!"." ++ g.name ++
        b!" is type " ++ Says.reference g.type)]

/-- The interfaces among the types that `t` implements. -/
noncomputable def interfaces (s : Schema) (t : TypeDef) : List Bytes := (t.ifaces.map tyName).filter fun n => IsKind s n .interface

/-- The errors about the types that an object type implements. -/
noncomputable def interfaceErrors (s : Schema) (t : TypeDef) : List GErr :=
  (((t.ifaces.map tyName).filter fun n => ¬ IsKind s n .interface).map fun n =>
    newError (b!"Type " ++ t.name ++ b!" must only implement Interface types, it cannot implement " ++ n)) ++
  ((repeated (interfaces s t)).map fun n => newError (b!"Type " ++ t.name ++ b!" can only implement " ++ n ++ b!" once.")) ++
  (interfaces s t).eraseDups.flatMap fun n => match s.types.lookup n with
    | some i => implementationErrors s t i
    | none => []

/-- The types of the introspection system, whose names may begin with two underscores. -/
def introspectionNames : List Bytes :=
  [b!"__Schema", b!"__Directive", b!"__DirectiveLocation", b!"__Type", b!"__Field", b!"__InputValue", b!"__EnumValue", b!"__TypeKind"]

/-- The errors about one type of a schema. -/
noncomputable def typeErrors (s : Schema) (p : Bytes × TypeDef) : List GErr :=
  (if p.1 ∈ introspectionNames then [] else nameErrors p.1) ++
  (if p.2.kind = .object ∨ p.2.kind = .interface then fieldErrors s p.2 else []) ++
  (if p.2.kind = .object then interfaceErrors s p.2 else [])

/-- The errors about one directive of a schema. -/
noncomputable def directiveDefErrors (p : Bytes × DirDef) : List GErr :=
  nameErrors p.1 ++ ((p.2.args.map (·.name)).eraseDups.flatMap nameErrors) ++
  (repeated (p.2.args.map (·.name))).map fun a => newError (b!"Argument @" ++ p.1 ++ b!"(" ++ a ++ b!":) can only be defined once.")

/-- All errors of a schema. -/
noncomputable def schemaErrors (s : Schema) : List GErr :=
  rootTypeErrs s ++ s.directives.flatMap directiveDefErrors ++ s.types.flatMap (typeErrors s)

/-! ### When the code gives no answer -/

/-- The comparison of `a` and `b` comes to an object type that is not a possible type of an abstract one. -/
inductive StuckSub (s : Schema) : Ty → Ty → Prop where
  | named {n m : Bytes} {x y : Bool} (h : y = true → x = true) (hn : n ≠ m) (ho : IsKind s n .object)
      (ha : IsKind s m .interface ∨ IsKind s m .union) (hp : ¬ PossibleType s m n) : StuckSub s (.named n x) (.named m y)
  | list {t u : Ty} {x y : Bool} (h : y = true → x = true) (ht : StuckSub s t u) : StuckSub s (.list t x) (.list u y)

/-- No list type of a field or argument of an object or interface type has lost its item type. -/
def Complete (s : Schema) : Prop :=
  ∀ p ∈ s.types, (p.2.kind = .object ∨ p.2.kind = .interface) →
    ∀ f ∈ p.2.fields, (innerName f.type).isSome ∧ ∀ a ∈ f.args, (innerName a.type).isSome

/-- No comparison of a field with the field of an interface is stuck. -/
def Settled (s : Schema) : Prop :=
  ∀ p ∈ s.types, p.2.kind = .object → ∀ t ∈ p.2.ifaces, ∀ i, s.types.lookup (tyName t) = some i → i.kind = .interface →
    ∀ f ∈ i.fields, ∀ g, p.2.fields.find? (fun g => g.name == f.name) = some g → ¬ StuckSub s g.type f.type

end GQL.Spec
