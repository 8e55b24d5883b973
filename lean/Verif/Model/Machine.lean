/-
The counters of a document as Go keeps them, in 32 bits.
-/
import Verif.Model.Api

namespace GQL

/-- The counters of `ast.Document` (ast/ast.go:46-52), which are `int32`. -/
structure Counters32 where
  operations : BitVec 32 := 0
  fragments : BitVec 32 := 0
  directives : BitVec 32 := 0
  schemas : BitVec 32 := 0
  types : BitVec 32 := 0
  schemaExts : BitVec 32 := 0
  typeExts : BitVec 32 := 0
  deriving Inhabited

/-- The counting in the loop of `Parse` (parser.go:44-69): `++` of an `int32` wraps around. -/
def count32 (st : Counters32 × List Bytes) (d : Definition) : Counters32 × List Bytes :=
  match d.body with
  | .op _ => ({ st.1 with operations := st.1.operations + 1 }, st.2)
  | .frag _ => ({ st.1 with fragments := st.1.fragments + 1 }, st.2)
  | .directive _ => ({ st.1 with directives := st.1.directives + 1 }, st.2)
  | .schema _ => ({ st.1 with schemas := st.1.schemas + 1 }, st.2)
  | .type _ => ({ st.1 with types := st.1.types + 1 }, st.2)
  | .schemaExt _ => ({ st.1 with schemaExts := st.1.schemaExts + 1 }, st.2)
  | .typeExt t => (st.1, if st.2.contains t.name then st.2 else t.name :: st.2)

/-- The counters of the document made of the definitions (parser.go:44-69, 83); `int32(len(m))` keeps the lowest 32 bits. -/
def counters32 (defs : List Definition) : Counters32 :=
  let st := defs.foldl count32 ({}, [])
  { st.1 with typeExts := BitVec.ofNat 32 st.2.length }

/-- `make([]T, 0, n)` (Go specification, "Making slices, maps and channels"): panics if the capacity is negative. -/
def makeSlice (n : Int) : Out Unit := if n < 0 then .panic else .ret ()

/-- `NewSDLContext` with the allocation of `SchemaExtensions` (validation/context.go:320-322).  Not modelled: the size hints of the
maps (context.go:302-318, 324-326), which have no effect other than on memory; memory running out. -/
def newSDLContext32 (doc : Document) (n : Counters32) (schema : Option Schema) : Out Ctx :=
  match makeSlice n.schemaExts.toInt with
  | .ret () => .ret (newSDLContext doc schema)
  | .panic => .panic
  | .oof => .oof

/-- A document with the counters it has in Go.  A negative counter is given as 0: the only use of a counter other than as a size is
`OperationDefinitions > 1` (rule_lone_anonymous_operation.go:14), which is false for both. -/
def Document.in32 (d : Document) : Document :=
  let n := counters32 d.defs
  { d with operations := n.operations.toInt.toNat, fragments := n.fragments.toInt.toNat, directives := n.directives.toInt.toNat,
           schemas := n.schemas.toInt.toNat, types := n.types.toInt.toNat, schemaExts := n.schemaExts.toInt.toNat,
           typeExts := n.typeExts.toInt.toNat }

/-- `ParseSDLDoc` (graphqlparser.go:36-60) with counters of 32 bits: the context is made right after parsing (validation/validate.go). -/
def parseSDLDoc32 (pf : Bytes → Option Nat) (fuel : Nat) (ord : Orders) (input : Bytes) (schema : Option Schema) : Out SDLResult :=
  match parse pf input with
  | .ok d =>
    match newSDLContext32 d.in32 (counters32 d.defs) schema with
    | .ret _ => parseSDLDoc pf fuel ord input schema
    | .panic => .panic
    | .oof => .oof
  | _ => parseSDLDoc pf fuel ord input schema

end GQL
