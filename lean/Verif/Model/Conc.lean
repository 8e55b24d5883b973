/-
Model of `ParseDoc` and `ParseSDLDoc` called from several goroutines.

The memory is a map from addresses to cells.  A cell is a struct (`TypeDefinition` or `TypeExtension`, `SchemaDefinition` or `SchemaExtension`, a list node,
`graphql.Schema`) or a map.  A call is a program that reads, writes and allocates one cell at a time; the steps of calls that run at the same time are
interleaved in any way.  The memory is sequentially consistent: that a Go program without data races sees such a memory is part of the Go memory model, and
Props/C77 shows that there are no data races.

Simplifications.  The access to one field of a struct or one entry of a map counts as an access to the whole cell, so that there are more conflicts
than in Go, not fewer.  `ParseDoc` reads everything that its schema points to before it works on the value; so does `ParseSDLDoc`, which
reads the schema again after building.  The definitions of the document that `ParseSDLDoc` puts into the schema are allocated when
`BuildSchema` begins; the rest of the document, like the context and the errors, is memory that only the call itself knows, and is not modelled.  Items of
lists, root types and directive definitions, which the code never changes once they are made, are values.  A loop over a list is bounded by the length that
the list reports (`Len`).  Memory is never freed.
-/
import Verif.Model.HeapBuild

namespace GQL.Conc

/-- The data of a list node (`Data` in ast/lists.go), for the list types that a schema contains. -/
inductive Item where
  | dir (x : Directive)
  | field (x : FieldDef)
  | ty (x : Ty)
  | value (x : EnumVal)
  | input (x : InputVal)
  | op (x : OpTypeDef)

/-- The types of items. -/
class IsItem (α : Type) where
  inj : α → Item
  proj : Item → Option α
  proj_inj : ∀ x, proj (inj x) = some x

instance : IsItem Directive := ⟨.dir, fun | .dir x => some x | _ => none, fun _ => rfl⟩
instance : IsItem FieldDef := ⟨.field, fun | .field x => some x | _ => none, fun _ => rfl⟩
instance : IsItem Ty := ⟨.ty, fun | .ty x => some x | _ => none, fun _ => rfl⟩
instance : IsItem EnumVal := ⟨.value, fun | .value x => some x | _ => none, fun _ => rfl⟩
instance : IsItem InputVal := ⟨.input, fun | .input x => some x | _ => none, fun _ => rfl⟩
instance : IsItem OpTypeDef := ⟨.op, fun | .op x => some x | _ => none, fun _ => rfl⟩

/-- `TypeDefinition` and `TypeExtension` (ast/ast.go:448-458, 554-563): the lists are pointers. -/
structure TypeCell where
  head : TypeHead
  dirs : Ptr := none
  fields : Ptr := none
  ifaces : Ptr := none
  members : Ptr := none
  values : Ptr := none
  inputs : Ptr := none

/-- `graphql.Schema` (graphql/schema.go:6-23): the definition and the two maps are pointers. -/
structure SchemaCell where
  definition : Ptr := none
  queryType : Option Ty := none
  mutationType : Option Ty := none
  subscriptionType : Option Ty := none
  directives : Ptr := none
  types : Ptr := none

/-- What is at an address. -/
inductive Cell where
  | type (c : TypeCell)
  /-- `SchemaDefinition` and `SchemaExtension` (ast/ast.go:397-400, 403-406). -/
  | schemaDef (dirs ops : Ptr)
  /-- A list node (ast/lists.go:6-10). -/
  | node (item : Item) (next : Ptr) (pos : Int)
  | schema (c : SchemaCell)
  /-- `map[string]*ast.DirectiveDefinition` -/
  | dirMap (m : GMap DirDef)
  /-- `map[string]*ast.TypeDefinition` -/
  | typeMap (m : GMap Nat)

/-- The memory. -/
abbrev Memory := Nat → Option Cell

/-- The memory with another cell at one address. -/
def Memory.set (m : Memory) (a : Nat) (c : Cell) : Memory := fun b => if b = a then some c else m b

/-- What one goroutine still has to do in a call: it is done, or it accesses the memory and goes on. -/
inductive Prog (α : Type) where
  | done (o : Out α)
  | read (a : Nat) (k : Cell → Prog α)
  | write (a : Nat) (c : Cell) (k : Prog α)
  | alloc (c : Cell) (k : Nat → Prog α)

/-- One after the other. -/
def Prog.bind {α β : Type} : Prog α → (α → Prog β) → Prog β
  | .done (.ret a), f => f a
  | .done .panic, _ => .done .panic
  | .done .oof, _ => .done .oof
  | .read a k, f => .read a fun c => (k c).bind f
  | .write a c k, f => .write a c (k.bind f)
  | .alloc c k, f => .alloc c fun a => (k a).bind f

instance : Monad Prog where
  pure a := .done (.ret a)
  bind := Prog.bind

/-! ### Single accesses.  A nil pointer, or a pointer to something of another type, is a panic. -/

section
variable {α : Type}

/-- Reads a list node. -/
def readNode [IsItem α] (a : Nat) : Prog (α × Ptr × Int) :=
  .read a fun
    | .node x q pos => match IsItem.proj x with
      | some x => pure (x, q, pos)
      | none => .done .panic
    | _ => .done .panic

end

/-- Reads a type struct. -/
def readTypeCell (a : Nat) : Prog TypeCell := .read a fun | .type c => pure c | _ => .done .panic

/-- Reads a schema definition or extension. -/
def readSchemaDefCell (a : Nat) : Prog (Ptr × Ptr) := .read a fun | .schemaDef p q => pure (p, q) | _ => .done .panic

/-- Reads a `graphql.Schema`. -/
def readSchemaCell (a : Nat) : Prog SchemaCell := .read a fun | .schema c => pure c | _ => .done .panic

/-- Reads a map of directives; the nil map has no entries. -/
def readDirMap : Ptr → Prog (GMap DirDef)
  | none => pure []
  | some a => .read a fun | .dirMap m => pure m | _ => .done .panic

/-- Reads a map of types; the nil map has no entries. -/
def readTypeMap : Ptr → Prog (GMap Nat)
  | none => pure []
  | some a => .read a fun | .typeMap m => pure m | _ => .done .panic

/-- Writes a cell. -/
def put (a : Nat) (c : Cell) : Prog Unit := .write a c (pure ())

/-- Allocates a cell. -/
def new (c : Cell) : Prog Nat := .alloc c fun a => pure a

/-! ### Lists -/

section
variable (α : Type) [IsItem α]

/-- `Len` (ast/lists.go:137-142). -/
def len : Ptr → Prog Int
  | none => pure 0
  | some a => do
    let n ← readNode (α := α) a
    pure (n.2.2 + 1)

/-- The loop of `ForEach` (ast/lists.go:36-45): the items, in order. -/
def itemsLoop : Nat → Ptr → Prog (List α)
  | _, none => pure []
  | 0, some _ => .done .oof
  | f + 1, some a => do
    let n ← readNode (α := α) a
    let l ← itemsLoop f n.2.1
    pure (n.1 :: l)

/-- `ForEach` (ast/lists.go:28-46). -/
def items (p : Ptr) : Prog (List α) := do
  let n ← len α p
  itemsLoop α n.toNat p

/-- `Add` (ast/lists.go:13-25). -/
def add (p : Ptr) (x : α) : Prog Ptr := do
  let n ← len α p
  let a ← new (.node (IsItem.inj x) p n)
  pure (some a)

/-- The loop of `ArgumentsFromSlice` (ast/lists.go:169-171). -/
def addAll : Ptr → List α → Prog Ptr
  | p, [] => pure p
  | p, x :: l => do
    let p ← add α p x
    addAll p l

/-- The loop of `Reverse` (ast/lists.go:153-161). -/
def reverseLoop : Nat → Ptr → Ptr → Int → Prog Ptr
  | _, none, prev, _ => pure prev
  | 0, some _, _, _ => .done .oof
  | f + 1, some a, prev, pos => do
    let n ← readNode (α := α) a
    put a (.node (IsItem.inj n.1) prev pos)
    reverseLoop f n.2.1 (some a) (pos + 1)

/-- `Reverse` (ast/lists.go:147-164). -/
def reverse (p : Ptr) : Prog Ptr := do
  let n ← len α p
  reverseLoop α n.toNat p none 0

/-- The parser makes a list: `Add` for each item and `Reverse` at the end (e.g. language/parser.go:965-968, 982). -/
def make (l : List α) : Prog Ptr := do
  let p ← addAll α none l
  reverse α p

/-- The loop of `Join` (ast/lists.go:126-131): renumbers the nodes; returns the last one. -/
def joinLoop : Nat → Nat → Ptr → Int → Prog Nat
  | _, last, none, _ => pure last
  | 0, _, some _, _ => .done .oof
  | f + 1, _, some a, pos => do
    let n ← readNode (α := α) a
    put a (.node (IsItem.inj n.1) n.2.1 pos)
    joinLoop f a n.2.1 (pos - 1)

/-- `Join` (ast/lists.go:118-134). -/
def join (p q : Ptr) : Prog Unit :=
  match p with
  | none => pure ()
  | some a => do
    let n ← len α p
    let m ← len α q
    let last ← joinLoop α n.toNat a p (n + m - 1)
    let nd ← readNode (α := α) last
    put last (.node (IsItem.inj nd.1) q nd.2.2)

end

/-! ### Definitions -/

/-- A new `TypeDefinition` or `TypeExtension` (e.g. language/parser.go:1237-1245). -/
def newType (t : TypeDef) : Prog Nat := do
  let dirs ← make Directive t.dirs
  let fields ← make FieldDef t.fields
  let ifaces ← make Ty t.ifaces
  let members ← make Ty t.members
  let values ← make EnumVal t.values
  let inputs ← make InputVal t.inputs
  new (.type { head := ⟨t.desc, t.name, t.kind⟩, dirs := dirs, fields := fields, ifaces := ifaces, members := members, values := values, inputs := inputs })

/-- A new `SchemaDefinition` or `SchemaExtension` (language/parser.go:980-983). -/
def newSchemaDef (d : SchemaDef) : Prog Nat := do
  let dirs ← make Directive d.dirs
  let ops ← make OpTypeDef d.ops
  new (.schemaDef dirs ops)

/-- One for each. -/
def newAll {τ υ : Type} (f : τ → Prog υ) : List τ → Prog (List υ)
  | [] => pure []
  | t :: ts => do
    let a ← f t
    let l ← newAll f ts
    pure (a :: l)

/-- One for each entry of a map. -/
def newMap {τ υ : Type} (f : τ → Prog υ) : GMap τ → Prog (GMap υ)
  | [] => pure []
  | (n, t) :: ts => do
    let a ← f t
    let l ← newMap f ts
    pure ((n, a) :: l)

/-- The schema definition of the document, if there is one. -/
def newOpt {τ υ : Type} (f : τ → Prog υ) : Option τ → Prog (Option υ)
  | none => pure none
  | some t => do
    let a ← f t
    pure (some a)

/-- The definitions of the document that the SDL context points to. -/
def newSDL (s : SDLContext) : Prog PSDL := do
  let types ← newMap newType s.types
  let exts ← newMap (newAll newType) s.typeExts
  let d ← newOpt newSchemaDef s.schemaDef
  let ds ← newAll newSchemaDef s.schemaExts
  pure { directives := s.directives, types := types, typeExts := exts, schemaDef := d, schemaExts := ds, isExtending := s.isExtending }

/-- What a type struct contains. -/
def readType (a : Nat) : Prog TypeDef := do
  let c ← readTypeCell a
  let dirs ← items Directive c.dirs
  let fields ← items FieldDef c.fields
  let ifaces ← items Ty c.ifaces
  let members ← items Ty c.members
  let values ← items EnumVal c.values
  let inputs ← items InputVal c.inputs
  pure { desc := c.head.desc, name := c.head.name, kind := c.head.kind, ifaces := ifaces, dirs := dirs, fields := fields, members := members,
         values := values, inputs := inputs }

/-- What the entries of a map of types contain. -/
def readTypes : GMap Nat → Prog (GMap TypeDef)
  | [] => pure []
  | (n, a) :: l => do
    let t ← readType a
    let r ← readTypes l
    pure ((n, t) :: r)

/-- What a schema definition contains. -/
def readDefinition : Ptr → Prog (Option SchemaDef)
  | none => pure none
  | some b => do
    let c ← readSchemaDefCell b
    let dirs ← items Directive c.1
    let ops ← items OpTypeDef c.2
    pure (some { dirs := dirs, ops := ops })

/-- What a schema contains. -/
def readSchema (a : Nat) : Prog Schema := do
  let c ← readSchemaCell a
  let d ← readDefinition c.definition
  let dm ← readDirMap c.directives
  let tm ← readTypeMap c.types
  let ts ← readTypes tm
  pure { definition := d, queryType := c.queryType, mutationType := c.mutationType, subscriptionType := c.subscriptionType, directives := dm, types := ts }

/-! ### Building -/

/-- The loop of `mergeSchemaExtensions` (validation/schema_build.go:123-127). -/
def mergeSchemaExts (b : Nat) : List Nat → Prog Unit
  | [] => pure ()
  | e :: es => do
    let c ← readSchemaDefCell b
    let d ← readSchemaDefCell e
    join Directive c.1 d.1
    join OpTypeDef c.2 d.2
    mergeSchemaExts b es

/-- `mergeSchemaExtensions` (validation/schema_build.go:118-128). -/
def mergeSchemaExtensions (s : PSDL) : Prog Unit :=
  match s.schemaDef with
  | none => pure ()
  | some b => mergeSchemaExts b s.schemaExts

/-- The body of the inner loop of `mergeTypeExtensions` (validation/schema_build.go:139-155) for the type struct `t` and the extension `e`. -/
def mergeTypeExt (t e : Nat) : Prog Unit := do
  let c ← readTypeCell t
  let d ← readTypeCell e
  join Directive c.dirs d.dirs
  match d.head.kind with
  | .object => do
    join FieldDef c.fields d.fields
    join Ty c.ifaces d.ifaces
  | .interface => join FieldDef c.fields d.fields
  | .union => join Ty c.members d.members
  | .enum => join EnumVal c.values d.values
  | .inputObject => join InputVal c.inputs d.inputs
  | .scalar => pure ()

/-- The inner loop of `mergeTypeExtensions`. -/
def mergeInto (t : Nat) : List Nat → Prog Unit
  | [] => pure ()
  | e :: es => do
    mergeTypeExt t e
    mergeInto t es

/-- `ctx.TypeDefinition` (validation/context.go:123-139) for the schema at `a`. -/
def typeDefinition (a : Nat) (s : PSDL) (name : Bytes) : Prog Ptr :=
  if s.isExtending then do
    let c ← readSchemaCell a
    let m ← readTypeMap c.types
    match m.lookup name with
    | some t => pure (some t)
    | none => pure (s.types.lookup name)
  else pure (s.types.lookup name)

/-- The loops of `mergeTypeExtensions` (validation/schema_build.go:132-156). -/
def mergeTypeExts (a : Nat) (s : PSDL) : List (Bytes × List Nat) → Prog Unit
  | [] => pure ()
  | (name, exts) :: rest => do
    let t ← typeDefinition a s name
    match t with
    | none => pure ()
    | some t => do
      mergeInto t exts
      mergeTypeExts a s rest

/-- The function that `buildSchemaDefinition` applies to each entry (validation/schema_build.go:102-111). -/
def setRoot (c : SchemaCell) (o : OpTypeDef) : SchemaCell :=
  match o.op with
  | .query => { c with queryType := some o.type }
  | .mutation => { c with mutationType := some o.type }
  | .subscription => { c with subscriptionType := some o.type }

/-- The loop over the operation types (validation/schema_build.go:101-112). -/
def setRoots (a : Nat) : List OpTypeDef → Prog Unit
  | [] => pure ()
  | o :: os => do
    let c ← readSchemaCell a
    put a (.schema (setRoot c o))
    setRoots a os

/-- `buildSchemaDefinition` (validation/schema_build.go:84-115). -/
def buildSchemaDefinition (a : Nat) (s : PSDL) : Prog Unit := do
  let b ← match s.schemaDef with
    | some b => pure b
    | none => newSchemaDef defaultSchemaDef
  let d ← readSchemaDefCell b
  let ops ← items OpTypeDef d.2
  setRoots a ops
  let c ← readSchemaCell a
  put a (.schema { c with definition := some b })

/-- The loop that adds the built-in directives that are missing (validation/schema_build.go:42-46). -/
def addMissingDirs (m : Nat) : GMap DirDef → Prog Unit
  | [] => pure ()
  | (n, d) :: l => do
    let x ← readDirMap (some m)
    if (x.lookup n).isSome then addMissingDirs m l
    else do
      put m (.dirMap (mapSet x n d))
      addMissingDirs m l

/-- The loop that copies the directives (validation/schema_build.go:51-53). -/
def copyDirs (m : Nat) : GMap DirDef → Prog Unit
  | [] => pure ()
  | (n, d) :: l => do
    let x ← readDirMap (some m)
    put m (.dirMap (mapSet x n d))
    copyDirs m l

/-- `buildDirectives` (validation/schema_build.go:36-57). -/
def buildDirectives (ord : Order DirDef) (a : Nat) (s : PSDL) : Prog Unit :=
  if !s.isExtending then do
    let m ← new (.dirMap s.directives)
    let c ← readSchemaCell a
    put a (.schema { c with directives := some m })
    addMissingDirs m (ord.arrange specifiedDirectives)
  else do
    let m ← new (.dirMap [])
    copyDirs m (ord.arrange s.directives)
    let c ← readSchemaCell a
    put a (.schema { c with directives := some m })

/-- The loop that adds the built-in types that are missing (validation/schema_build.go:66-70). -/
def addMissingTypes (m : Nat) : GMap Nat → Prog Unit
  | [] => pure ()
  | (n, d) :: l => do
    let x ← readTypeMap (some m)
    if (x.lookup n).isSome then addMissingTypes m l
    else do
      put m (.typeMap (mapSet x n d))
      addMissingTypes m l

/-- The loop that copies the types (validation/schema_build.go:75-77). -/
def copyTypes (m : Nat) : GMap Nat → Prog Unit
  | [] => pure ()
  | (n, d) :: l => do
    let x ← readTypeMap (some m)
    put m (.typeMap (mapSet x n d))
    copyTypes m l

/-- `buildTypes` (validation/schema_build.go:60-81). -/
def buildTypes (ord : Order Nat) (a : Nat) (s : PSDL) : Prog Unit :=
  if !s.isExtending then do
    let m ← new (.typeMap s.types)
    let c ← readSchemaCell a
    put a (.schema { c with types := some m })
    addMissingTypes m (ord.arrange specifiedTypesP)
  else do
    let m ← new (.typeMap [])
    copyTypes m (ord.arrange s.types)
    let c ← readSchemaCell a
    put a (.schema { c with types := some m })

/-- `buildSchema` (validation/schema_build.go:26-33). -/
def buildSchema (ord : POrders) (a : Nat) (s : PSDL) : Prog Unit := do
  mergeSchemaExtensions s
  mergeTypeExts a s (ord.exts.arrange s.typeExts)
  buildSchemaDefinition a s
  buildDirectives ord.dirs a s
  buildTypes ord.types a s

/-! ### The calls -/

/-- What a goroutine can call.  Schemas are numbered in the order in which they were returned first; `none` is the nil pointer. -/
inductive Call where
  /-- The caller looks at everything in a schema. -/
  | look (i : Nat)
  /-- `ParseDoc` -/
  | doc (input : Bytes) (base : Option Nat)
  /-- `ParseSDLDoc`; how long it may take, and in which orders it iterates over maps. -/
  | sdl (input : Bytes) (base : Option Nat) (fuel : Nat) (ord : POrders)

/-- What a call returns.  The `schema` of a `PResult` is an address here. -/
inductive Result where
  | contents (s : Schema)
  | doc (r : DocResult)
  | sdl (r : PResult)

/-- What an optional schema contains. -/
def readBase : Ptr → Prog (Option Schema)
  | none => pure none
  | some a => do
    let s ← readSchema a
    pure (some s)

/-- `ParseDoc` (graphqlparser.go:19-33) for the schema at `base`. -/
def parseDoc (pf : Bytes → Option Nat) (input : Bytes) (base : Ptr) : Prog DocResult := do
  let s ← readBase base
  .done (GQL.parseDoc pf input s)

/-- The schema that is built: the one that was passed in, or a new one (validation/context.go:38-41). -/
def target : Ptr → Prog Nat
  | some a => pure a
  | none => new (.schema {})

/-- `ParseSDLDoc` (graphqlparser.go:36-60) for the schema at `base`. -/
def parseSDLDoc (pf : Bytes → Option Nat) (fuel : Nat) (ord : POrders) (input : Bytes) (base : Ptr) : Prog PResult := do
  let schema ← readBase base
  match parse pf input with
  | .panic => .done .panic
  | .oof => .done .oof
  | .err e => pure ⟨none, none, some e⟩
  | .ok d => do
    let ctx ← .done (validateSDL d schema (rulesWalker specifiedSDL))
    if ctx.errors.length > 0 then pure ⟨none, some ctx.errors, none⟩
    else match ctx.sdl with
      | none => .done .panic
      | some s => do
        let q ← newSDL s
        let a ← target base
        buildSchema ord a q
        let b ← readSchema a
        let ctx ← .done (validateSchema fuel ord.run { ctx with schema := b } b)
        if ctx.errors.length > 0 then pure ⟨none, some ctx.errors, none⟩
        else pure ⟨some a, none, none⟩

/-! ### Goroutines -/

/-- A call that is running. -/
structure Thread where
  call : Call
  prog : Prog Result

/-- The memory, the addresses of the schemas that were returned so far, what the goroutines are doing (a goroutine that does not appear is not in a call),
and the calls that have returned so far with their results, the last one last. -/
structure State where
  mem : Memory
  schemas : List Nat
  threads : Nat → Option Thread
  log : List (Call × Result)

/-- The global variables `IDType` and `StringType` (graphql/builtin.go:67-77) are at the addresses 0 and 1. -/
def globals : Memory := fun
  | 0 => some (.type { head := ⟨[], b!"ID", .scalar⟩ })
  | 1 => some (.type { head := ⟨[], b!"String", .scalar⟩ })
  | _ => none

/-- Nothing has been called yet. -/
def State.init : State := ⟨globals, [], fun _ => none, []⟩

/-- The schema that a call is given. -/
def Call.base : Call → Option Nat
  | .look i => some i
  | .doc _ b => b
  | .sdl _ b _ _ => b

/-- The program of a call that is given the schema at `p`. -/
def Call.prog (pf : Bytes → Option Nat) (c : Call) (p : Ptr) : Prog Result :=
  match c with
  | .look _ => match p with
    | none => .done .panic
    | some a => do
      let s ← readSchema a
      pure (.contents s)
  | .doc input _ => do
    let r ← parseDoc pf input p
    pure (.doc r)
  | .sdl input _ fuel ord => do
    let r ← parseSDLDoc pf fuel ord input p
    pure (.sdl r)

/-- A pointer to a schema that the program did not know before is the next one; else it is an old one.  A result names schemas by their numbers. -/
def State.record (s : State) : Result → List Nat × Result
  | .sdl ⟨some a, errors, err⟩ => match s.schemas.findIdx? (· == a) with
    | some i => (s.schemas, .sdl ⟨some i, errors, err⟩)
    | none => (s.schemas ++ [a], .sdl ⟨some s.schemas.length, errors, err⟩)
  | r => (s.schemas, r)

/-- Another thread table. -/
def setThread (ts : Nat → Option Thread) (t : Nat) (x : Option Thread) : Nat → Option Thread := fun u => if u = t then x else ts u

/-- The pointer for a schema number, if there is such a schema. -/
inductive State.Points (s : State) : Option Nat → Ptr → Prop where
  | nil : Points s none none
  | at {i a : Nat} (h : s.schemas[i]? = some a) : Points s (some i) (some a)

/-- One step of goroutine `t`, which is in the middle of a call.  `cell` and `addr` are what it reads and where it allocates.  An access to an address
where nothing is would be a step to a panic. -/
inductive Access (m : Memory) : Prog Result → Memory → Prog Result → Prop where
  | read {a : Nat} {c : Cell} {k : Cell → Prog Result} (h : m a = some c) : Access m (.read a k) m (k c)
  | readWild {a : Nat} {k : Cell → Prog Result} (h : m a = none) : Access m (.read a k) m (.done .panic)
  | write {a : Nat} {c d : Cell} {k : Prog Result} (h : m a = some d) : Access m (.write a c k) (m.set a c) k
  | writeWild {a : Nat} {c : Cell} {k : Prog Result} (h : m a = none) : Access m (.write a c k) m (.done .panic)
  | alloc {a : Nat} {c : Cell} {k : Nat → Prog Result} (h : m a = none) : Access m (.alloc c k) (m.set a c) (k a)

/-- What can happen next: a goroutine makes a call that `ok` allows, or does one step of its call, or its call returns. -/
inductive Step (pf : Bytes → Option Nat) (ok : State → Call → Prop) : State → State → Prop where
  | start {s : State} {t : Nat} {c : Call} {p : Ptr} (idle : s.threads t = none) (hp : s.Points c.base p) (allowed : ok s c) :
      Step pf ok s { s with threads := setThread s.threads t (some ⟨c, c.prog pf p⟩) }
  | step {s : State} {t : Nat} {c : Call} {p p' : Prog Result} {m : Memory} (running : s.threads t = some ⟨c, p⟩) (access : Access s.mem p m p') :
      Step pf ok s { s with mem := m, threads := setThread s.threads t (some ⟨c, p'⟩) }
  | finish {s : State} {t : Nat} {c : Call} {r : Result} (running : s.threads t = some ⟨c, .done (.ret r)⟩) :
      Step pf ok s { s with schemas := (s.record r).1, threads := setThread s.threads t none, log := s.log ++ [(c, (s.record r).2)] }

/-- The states that the program can get to. -/
inductive Reachable (pf : Bytes → Option Nat) (ok : State → Call → Prop) : State → Prop where
  | init : Reachable pf ok .init
  | step {s s' : State} (h : Reachable pf ok s) (hs : Step pf ok s s') : Reachable pf ok s'

end GQL.Conc
