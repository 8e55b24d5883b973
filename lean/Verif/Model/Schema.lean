/-
Model of validation/schema_build.go.

Go iterates over a map in an arbitrary order: each `range` over a map takes its order from a parameter (`Order`), any rearrangement of the entries.
A definition in a map is a pointer; the model keeps the definition itself in the map and stores the changed definition where it was found.  This
supposes that a schema holds no definition under two names.
-/
import Verif.Model.Rules

namespace GQL

/-- An order of iteration over a map: some rearrangement of its entries. -/
structure Order (α : Type) where
  arrange : GMap α → GMap α
  perm : ∀ m, (arrange m).Perm m

/-- The order in which the entries were added. -/
def Order.id {α : Type} : Order α := ⟨fun m => m, fun _ => .refl _⟩

/-- `l.Join(other)` (ast/lists.go:803-819 and its copies) as a value: nothing happens to a nil list. -/
def joined {α : Type} (l other : List α) : List α := if l.isEmpty then l else l ++ other

/-- The loop of `mergeSchemaExtensions` (validation/schema_build.go:123-127). -/
def mergeSchemaExts (d : SchemaDef) (exts : List SchemaDef) : SchemaDef :=
  exts.foldl (fun d e => { dirs := joined d.dirs e.dirs, ops := joined d.ops e.ops }) d

/-- `mergeSchemaExtensions` (validation/schema_build.go:118-128). -/
def mergeSchemaExtensions (s : SDLContext) : SDLContext :=
  match s.schemaDef with
  | none => s
  | some d => if s.schemaExts.length = 0 then s else { s with schemaDef := some (mergeSchemaExts d s.schemaExts) }

/-- The body of the inner loop of `mergeTypeExtensions` (validation/schema_build.go:139-155). -/
def mergeTypeExt (t e : TypeDef) : TypeDef :=
  let t := { t with dirs := joined t.dirs e.dirs }
  match e.kind with
  | .object => { t with fields := joined t.fields e.fields, ifaces := joined t.ifaces e.ifaces }
  | .interface => { t with fields := joined t.fields e.fields }
  | .union => { t with members := joined t.members e.members }
  | .enum => { t with values := joined t.values e.values }
  | .inputObject => { t with inputs := joined t.inputs e.inputs }
  | .scalar => t

/-- The loops of `mergeTypeExtensions` (validation/schema_build.go:132-156); `TypeDefinition` (context.go:123-139) looks into the schema first. -/
def mergeTypeExts : List (Bytes × List TypeDef) → Schema × SDLContext → Schema × SDLContext
  | [], p => p
  | (name, exts) :: rest, (sch, s) =>
    match (if s.isExtending then sch.types.lookup name else none) with
    | some t => mergeTypeExts rest ({ sch with types := mapSet sch.types name (exts.foldl mergeTypeExt t) }, s)
    | none =>
      match s.types.lookup name with
      | some t => mergeTypeExts rest (sch, { s with types := mapSet s.types name (exts.foldl mergeTypeExt t) })
      | none => (sch, s)

/-- `mergeTypeExtensions` (validation/schema_build.go:131-157). -/
def mergeTypeExtensions (ord : Order (List TypeDef)) (p : Schema × SDLContext) : Schema × SDLContext :=
  mergeTypeExts (ord.arrange p.2.typeExts) p

/-- The schema definition that `buildSchemaDefinition` supposes if there is none (validation/schema_build.go:89-98). -/
def defaultSchemaDef : SchemaDef := { dirs := [], ops := [{ type := .named b!"Query" false, op := .query }] }

/-- The function that `buildSchemaDefinition` applies to each entry (validation/schema_build.go:102-111). -/
def setRootType (sch : Schema) (o : OpTypeDef) : Schema :=
  match o.op with
  | .query => { sch with queryType := some o.type }
  | .mutation => { sch with mutationType := some o.type }
  | .subscription => { sch with subscriptionType := some o.type }

/-- `buildSchemaDefinition` (validation/schema_build.go:84-115). -/
def buildSchemaDefinition (sch : Schema) (s : SDLContext) : Schema :=
  let d := s.schemaDef.getD defaultSchemaDef
  { d.ops.foldl setRootType sch with definition := some d }

/-- The loops that add the built-in definitions that are missing (validation/schema_build.go:42-46, 66-70). -/
def addMissing {α : Type} (m builtin : GMap α) : GMap α :=
  builtin.foldl (fun m p => if (m.lookup p.1).isSome then m else mapSet m p.1 p.2) m

/-- The loops that copy a map (validation/schema_build.go:49-53, 73-77). -/
def copyMap {α : Type} (m : GMap α) : GMap α := m.foldl (fun m p => mapSet m p.1 p.2) []

/-- `buildDirectives` (validation/schema_build.go:36-57). -/
def buildDirectives (ord : Order DirDef) (sch : Schema) (s : SDLContext) : Schema :=
  if !s.isExtending then { sch with directives := addMissing s.directives (ord.arrange specifiedDirectives) }
  else { sch with directives := copyMap (ord.arrange s.directives) }

/-- `buildTypes` (validation/schema_build.go:60-81). -/
def buildTypes (ord : Order TypeDef) (sch : Schema) (s : SDLContext) : Schema :=
  if !s.isExtending then { sch with types := addMissing s.types (ord.arrange specifiedTypes) }
  else { sch with types := copyMap (ord.arrange s.types) }

/-- The orders of iteration in `BuildSchema`. -/
structure BuildOrders where
  exts : Order (List TypeDef)
  dirs : Order DirDef
  types : Order TypeDef

/-- `buildSchema` (validation/schema_build.go:26-33) on `ctx.Schema` and `ctx.SDLContext`: what `ctx.Schema` points to afterwards.  (The maps of the
SDL context that become those of the schema are not used any more.) -/
def buildSchemaOf (ord : BuildOrders) (sch : Schema) (s : SDLContext) : Schema :=
  let p := mergeTypeExtensions ord.exts (sch, mergeSchemaExtensions s)
  buildTypes ord.types (buildDirectives ord.dirs (buildSchemaDefinition p.1 p.2) p.2) p.2

/-- `BuildSchema` (validation/schema_build.go:19-23); panics without an SDL context.  The schema it returns is the one of the context, changed in place. -/
def buildSchema (ord : BuildOrders) (c : Ctx) : Out Ctx :=
  match c.sdl with
  | none => .panic
  | some s => .ret { c with schema := buildSchemaOf ord c.schema s }

end GQL
