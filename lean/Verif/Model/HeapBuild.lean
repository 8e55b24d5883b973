/-
Model of validation/schema_build.go and of `ParseSDLDoc` with pointers and mutation.

Model/Schema.lean keeps definitions as values.  Here the structs `TypeDefinition`, `TypeExtension`, `SchemaDefinition` and `SchemaExtension` are objects in
memory, which hold pointers to linked lists (Model/Heap), and maps hold the addresses of such objects: `typeDef.FieldsDefinition.Join(..)` changes whatever
shares the nodes.  A struct number `a` has its list fields in the variables of the memories below.

Simplifications.  The steps that only read (`ValidateSDL`, `ValidateSchema`, `ParseDoc`) work on the value that is read out of the memory.  The definitions
of the document are allocated when `BuildSchema` begins, instead of during parsing: nothing is allocated or changed between.  Items of lists, root types and
directive definitions, which the code never changes once they are made, are values.  The memory of a schema for which `ParseSDLDoc` returns an error although
it was given no schema is not kept, since nobody has a pointer to it.
-/
import Verif.Model.Heap
import Verif.Model.Api

namespace GQL

/-- The fields of `TypeDefinition` and `TypeExtension` (ast/ast.go:448-458, 554-563) that hold no list. -/
structure TypeHead where
  desc : Bytes
  name : Bytes
  kind : TypeKind

/-- The objects in memory.  Type structs and schema structs are numbered separately. -/
structure PMem where
  /-- The type structs allocated so far. -/
  heads : List TypeHead
  /-- How many schema structs are allocated so far. -/
  sdefs : Nat
  /-- `Directives` of type struct `a` is number `2 * a`, that of schema struct `b` is number `2 * b + 1`. -/
  dirs : Mem Directive
  /-- `FieldsDefinition` of type struct `a` is number `a`. -/
  fields : Mem FieldDef
  /-- `ImplementsInterface` of type struct `a` is number `2 * a`, `UnionMemberTypes` is number `2 * a + 1`. -/
  tys : Mem Ty
  /-- `EnumValuesDefinition` of type struct `a` is number `a`. -/
  values : Mem EnumVal
  /-- `InputFieldsDefinition` of type struct `a` is number `a`. -/
  inputs : Mem InputVal
  /-- `OperationTypeDefinitions` of schema struct `b` is number `b`. -/
  ops : Mem OpTypeDef

/-- `graphql.Schema` (graphql/schema.go:6-23) with pointers: `definition` and the entries of `types` are addresses. -/
structure PSchema where
  definition : Option Nat := none
  queryType : Option Ty := none
  mutationType : Option Ty := none
  subscriptionType : Option Ty := none
  directives : GMap DirDef := []
  types : GMap Nat := []

/-- `SDLContext` (validation/context.go:210-227) with pointers. -/
structure PSDL where
  directives : GMap DirDef
  types : GMap Nat
  typeExts : GMap (List Nat)
  schemaDef : Option Nat
  schemaExts : List Nat
  isExtending : Bool

/-- The memory when the program starts: the global variables `IDType` and `StringType` (graphql/builtin.go:67-77) are the type structs 0 and 1. -/
def PMem.init : PMem where
  heads := [⟨[], b!"ID", .scalar⟩, ⟨[], b!"String", .scalar⟩]
  sdefs := 0
  dirs := .init
  fields := .init
  tys := .init
  values := .init
  inputs := .init
  ops := .init

/-- `SpecifiedTypes` (graphql/builtin.go:94-99): pointers to the two global variables. -/
def specifiedTypesP : GMap Nat := [(b!"ID", 0), (b!"String", 1)]

/-! ### Allocation -/

section
variable {α : Type}

/-- The parser makes a list: `Add` for each item and `Reverse` at the end (e.g. language/parser.go:965-968, 982); the pointer goes to the struct field `x`. -/
def Mem.make (m : Mem α) (x : Nat) (l : List α) : Out (Mem α) :=
  (Heap.fromSlice m.heap l).bind fun r => .ret ⟨r.1, setPtr m.vars x r.2⟩

/-- `x.Join(y)` for two struct fields. -/
def Mem.joinVar (m : Mem α) (x y : Nat) : Out (Mem α) := (Heap.join m.heap (m.vars x) (m.vars y)).bind fun h => .ret ⟨h, m.vars⟩

/-- The items of the list in the struct field `x`, as `ForEach` passes them on. -/
def Mem.items (m : Mem α) (x : Nat) : Out (List α) := (Heap.forEach m.heap (m.vars x)).bind fun l => .ret (l.map (·.1))

end

/-- A new `TypeDefinition` or `TypeExtension` (e.g. language/parser.go:1237-1245). -/
def PMem.allocType (m : PMem) (t : TypeDef) : Out (PMem × Nat) :=
  let a := m.heads.length
  (m.dirs.make (2 * a) t.dirs).bind fun dirs =>
  (m.fields.make a t.fields).bind fun fields =>
  (m.tys.make (2 * a) t.ifaces).bind fun tys =>
  (tys.make (2 * a + 1) t.members).bind fun tys =>
  (m.values.make a t.values).bind fun values =>
  (m.inputs.make a t.inputs).bind fun inputs =>
  .ret ({ m with heads := m.heads ++ [⟨t.desc, t.name, t.kind⟩], dirs := dirs, fields := fields, tys := tys, values := values, inputs := inputs }, a)

/-- A new `SchemaDefinition` or `SchemaExtension` (language/parser.go:980-983). -/
def PMem.allocSchemaDef (m : PMem) (d : SchemaDef) : Out (PMem × Nat) :=
  let b := m.sdefs
  (m.dirs.make (2 * b + 1) d.dirs).bind fun dirs =>
  (m.ops.make b d.ops).bind fun ops =>
  .ret ({ m with sdefs := b + 1, dirs := dirs, ops := ops }, b)

/-- Allocates one after the other. -/
def allocAll {σ τ υ : Type} (f : σ → τ → Out (σ × υ)) : σ → List τ → Out (σ × List υ)
  | m, [] => .ret (m, [])
  | m, t :: ts => (f m t).bind fun r => (allocAll f r.1 ts).bind fun q => .ret (q.1, r.2 :: q.2)

/-- Allocates the entries of a map. -/
def allocEntry {σ τ υ : Type} (f : σ → τ → Out (σ × υ)) (m : σ) (p : Bytes × τ) : Out (σ × (Bytes × υ)) :=
  (f m p.2).bind fun r => .ret (r.1, (p.1, r.2))

/-- Allocates what an optional pointer points to. -/
def allocOpt {σ τ υ : Type} (f : σ → τ → Out (σ × υ)) (m : σ) : Option τ → Out (σ × Option υ)
  | none => .ret (m, none)
  | some t => (f m t).bind fun r => .ret (r.1, some r.2)

/-- The definitions of the document that the SDL context points to. -/
def PMem.allocSDL (m : PMem) (s : SDLContext) : Out (PMem × PSDL) :=
  (allocAll (allocEntry PMem.allocType) m s.types).bind fun r1 =>
  (allocAll (allocEntry (allocAll PMem.allocType)) r1.1 s.typeExts).bind fun r2 =>
  (allocOpt PMem.allocSchemaDef r2.1 s.schemaDef).bind fun r3 =>
  (allocAll PMem.allocSchemaDef r3.1 s.schemaExts).bind fun r4 =>
  .ret (r4.1, { directives := s.directives, types := r1.2, typeExts := r2.2, schemaDef := r3.2, schemaExts := r4.2, isExtending := s.isExtending })

/-! ### Reading -/

/-- What type struct `a` contains. -/
def PMem.readType (m : PMem) (a : Nat) : Out TypeDef :=
  match m.heads[a]? with
  | none => .panic
  | some h =>
    (m.dirs.items (2 * a)).bind fun dirs =>
    (m.fields.items a).bind fun fields =>
    (m.tys.items (2 * a)).bind fun ifaces =>
    (m.tys.items (2 * a + 1)).bind fun members =>
    (m.values.items a).bind fun values =>
    (m.inputs.items a).bind fun inputs =>
    .ret { desc := h.desc, name := h.name, kind := h.kind, ifaces := ifaces, dirs := dirs, fields := fields, members := members, values := values,
           inputs := inputs }

/-- What schema struct `b` contains. -/
def PMem.readSchemaDef (m : PMem) (b : Nat) : Out SchemaDef :=
  (m.dirs.items (2 * b + 1)).bind fun dirs => (m.ops.items b).bind fun ops => .ret { dirs := dirs, ops := ops }

/-- The same for the entries of a map of types. -/
def PMem.readTypes (m : PMem) : GMap Nat → Out (GMap TypeDef)
  | [] => .ret []
  | (n, a) :: l => (m.readType a).bind fun t => (PMem.readTypes m l).bind fun r => .ret ((n, t) :: r)

/-- What the schema definition of a schema contains, if it has one. -/
def PMem.readDefinition (m : PMem) : Option Nat → Out (Option SchemaDef)
  | none => .ret none
  | some b => (m.readSchemaDef b).bind fun d => .ret (some d)

/-- What a schema contains. -/
def PMem.readSchema (m : PMem) (p : PSchema) : Out Schema :=
  (m.readDefinition p.definition).bind fun d =>
  (m.readTypes p.types).bind fun ts =>
  .ret { definition := d, queryType := p.queryType, mutationType := p.mutationType, subscriptionType := p.subscriptionType, directives := p.directives,
         types := ts }

/-! ### Building -/

/-- The loop of `mergeSchemaExtensions` (validation/schema_build.go:123-127). -/
def PMem.mergeSchemaExts (m : PMem) (b : Nat) : List Nat → Out PMem
  | [] => .ret m
  | e :: es =>
    (m.dirs.joinVar (2 * b + 1) (2 * e + 1)).bind fun dirs =>
    (m.ops.joinVar b e).bind fun ops =>
    PMem.mergeSchemaExts { m with dirs := dirs, ops := ops } b es

/-- `mergeSchemaExtensions` (validation/schema_build.go:118-128). -/
def PMem.mergeSchemaExtensions (m : PMem) (s : PSDL) : Out PMem :=
  match s.schemaDef with
  | none => .ret m
  | some b => m.mergeSchemaExts b s.schemaExts

/-- The body of the inner loop of `mergeTypeExtensions` (validation/schema_build.go:139-155) for the type struct `t` and the extension `e`. -/
def PMem.mergeTypeExt (m : PMem) (t e : Nat) : Out PMem :=
  match m.heads[e]? with
  | none => .panic
  | some h =>
    (m.dirs.joinVar (2 * t) (2 * e)).bind fun dirs =>
    let m := { m with dirs := dirs }
    match h.kind with
    | .object =>
      (m.fields.joinVar t e).bind fun fields =>
      (m.tys.joinVar (2 * t) (2 * e)).bind fun tys => .ret { m with fields := fields, tys := tys }
    | .interface => (m.fields.joinVar t e).bind fun fields => .ret { m with fields := fields }
    | .union => (m.tys.joinVar (2 * t + 1) (2 * e + 1)).bind fun tys => .ret { m with tys := tys }
    | .enum => (m.values.joinVar t e).bind fun values => .ret { m with values := values }
    | .inputObject => (m.inputs.joinVar t e).bind fun inputs => .ret { m with inputs := inputs }
    | .scalar => .ret m

/-- The inner loop of `mergeTypeExtensions`. -/
def PMem.mergeInto (m : PMem) (t : Nat) : List Nat → Out PMem
  | [] => .ret m
  | e :: es => (m.mergeTypeExt t e).bind fun m => PMem.mergeInto m t es

/-- The type struct that extensions of `name` are merged into (validation/schema_build.go:133, validation/context.go:123-139). -/
def mergeTarget (sch : PSchema) (s : PSDL) (name : Bytes) : Option Nat :=
  match (if s.isExtending then sch.types.lookup name else none) with
  | some t => some t
  | none => s.types.lookup name

/-- The loops of `mergeTypeExtensions` (validation/schema_build.go:132-156): the maps do not change, the structs they point to do. -/
def PMem.mergeTypeExts (sch : PSchema) (s : PSDL) : List (Bytes × List Nat) → PMem → Out PMem
  | [], m => .ret m
  | (name, exts) :: rest, m =>
    match mergeTarget sch s name with
    | some t => (m.mergeInto t exts).bind fun m => PMem.mergeTypeExts sch s rest m
    | none => .ret m

/-- The function that `buildSchemaDefinition` applies to each entry (validation/schema_build.go:102-111). -/
def setRootTypeP (sch : PSchema) (o : OpTypeDef) : PSchema :=
  match o.op with
  | .query => { sch with queryType := some o.type }
  | .mutation => { sch with mutationType := some o.type }
  | .subscription => { sch with subscriptionType := some o.type }

/-- `buildSchemaDefinition` (validation/schema_build.go:84-115). -/
def PMem.buildSchemaDefinition (m : PMem) (sch : PSchema) (s : PSDL) : Out (PMem × PSchema) :=
  (match s.schemaDef with
    | some b => Out.ret (m, b)
    | none => m.allocSchemaDef defaultSchemaDef).bind fun r =>
  (r.1.ops.items r.2).bind fun ops => .ret (r.1, { ops.foldl setRootTypeP sch with definition := some r.2 })

/-- The orders of iteration. -/
structure POrders where
  exts : Order (List Nat)
  dirs : Order DirDef
  types : Order Nat
  run : RunOrders

/-- `buildDirectives` (validation/schema_build.go:36-57). -/
def buildDirectivesP (ord : Order DirDef) (sch : PSchema) (s : PSDL) : PSchema :=
  if !s.isExtending then { sch with directives := addMissing s.directives (ord.arrange specifiedDirectives) }
  else { sch with directives := copyMap (ord.arrange s.directives) }

/-- `buildTypes` (validation/schema_build.go:60-81). -/
def buildTypesP (ord : Order Nat) (sch : PSchema) (s : PSDL) : PSchema :=
  if !s.isExtending then { sch with types := addMissing s.types (ord.arrange specifiedTypesP) }
  else { sch with types := copyMap (ord.arrange s.types) }

/-- `buildSchema` (validation/schema_build.go:26-33). -/
def PMem.buildSchema (ord : POrders) (m : PMem) (sch : PSchema) (s : PSDL) : Out (PMem × PSchema) :=
  (m.mergeSchemaExtensions s).bind fun m =>
  (PMem.mergeTypeExts sch s (ord.exts.arrange s.typeExts) m).bind fun m =>
  (m.buildSchemaDefinition sch s).bind fun r =>
  .ret (r.1, buildTypesP ord.types (buildDirectivesP ord.dirs r.2 s) s)

/-! ### The calls -/

/-- The memory, and the schemas that the program has pointers to. -/
structure PState where
  mem : PMem
  schemas : List PSchema

/-- Nothing has been called yet. -/
def PState.init : PState := ⟨.init, []⟩

/-- What a call returns: the number of the schema, the errors and the error. -/
structure PResult where
  schema : Option Nat
  errors : Option (List GErr)
  err : Option PErr

/-- The schema number `i`; `none` is the nil pointer.  A program has no other pointers. -/
def PState.base (st : PState) : Option Nat → Out (Option PSchema)
  | none => .ret none
  | some i => match st.schemas[i]? with
    | none => .panic
    | some p => .ret (some p)

/-- What an optional schema contains. -/
def PMem.readBase (m : PMem) : Option PSchema → Out (Option Schema)
  | none => .ret none
  | some p => (m.readSchema p).bind fun s => .ret (some s)

/-- The schema that was passed in has become `p`. -/
def PState.update (st : PState) (m : PMem) (base : Option Nat) (p : PSchema) : PState :=
  match base with
  | none => ⟨m, st.schemas⟩
  | some i => ⟨m, st.schemas.set i p⟩

/-- `ParseSDLDoc` succeeds: if it was given a schema it returns that pointer, else a new one. -/
def PState.success (st : PState) (m : PMem) (base : Option Nat) (p : PSchema) : PState × PResult :=
  match base with
  | none => (⟨m, st.schemas ++ [p]⟩, ⟨some st.schemas.length, none, none⟩)
  | some i => (⟨m, st.schemas.set i p⟩, ⟨some i, none, none⟩)

/-- `ParseSDLDoc` (graphqlparser.go:36-60) on the memory. -/
def PState.parseSDLDoc (pf : Bytes → Option Nat) (fuel : Nat) (ord : POrders) (input : Bytes) (base : Option Nat) (st : PState) :
    Out (PState × PResult) :=
  (st.base base).bind fun p => (st.mem.readBase p).bind fun schema =>
  match parse pf input with
  | .panic => .panic
  | .oof => .oof
  | .err e => .ret (st, ⟨none, none, some e⟩)
  | .ok d =>
    (validateSDL d schema (rulesWalker specifiedSDL)).bind fun ctx =>
      if ctx.errors.length > 0 then .ret (st, ⟨none, some ctx.errors, none⟩)
      else match ctx.sdl with
        | none => .panic
        | some s =>
          (st.mem.allocSDL s).bind fun r =>
          (r.1.buildSchema ord (p.getD {}) r.2).bind fun q =>
          (q.1.readSchema q.2).bind fun b =>
          (validateSchema fuel ord.run { ctx with schema := b } b).bind fun ctx =>
            if ctx.errors.length > 0 then .ret (st.update q.1 base q.2, ⟨none, some ctx.errors, none⟩)
            else .ret (st.success q.1 base q.2)

/-- What all schemas contain. -/
def PMem.readAll (m : PMem) : List PSchema → Out (List Schema)
  | [] => .ret []
  | p :: l => (m.readSchema p).bind fun s => (PMem.readAll m l).bind fun r => .ret (s :: r)

/-- What the program sees of its schemas. -/
def PState.read (st : PState) : Out (List Schema) := st.mem.readAll st.schemas

end GQL
