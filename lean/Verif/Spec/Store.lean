/-
What a program can observe of a history of `ParseSDLDoc` calls if schemas are values: a list of schemas, numbered in the order in which they were returned.
A call concerns the schema that it is given, or adds one; nothing else is ever different afterwards.
-/
import Verif.Model.HeapBuild

namespace GQL.Spec

/-- A call of `ParseSDLDoc`: the document, the number of the schema that is passed in (`none` for nil), how long it may take and in which orders the maps are
iterated. -/
structure SDLCall (O : Type) where
  input : Bytes
  base : Option Nat
  fuel : Nat
  ord : O

/-- Without a schema: if one is returned, it is the next. -/
def callNew (store : List Schema) (r : SDLResult) : List Schema × PResult :=
  match r.schema with
  | none => (store, ⟨none, r.errors, r.err⟩)
  | some s => (store ++ [s], ⟨some store.length, r.errors, r.err⟩)

/-- With schema number `i`: that schema is what the call makes of it, and it is the one that is returned, if one is. -/
def callOn (store : List Schema) (i : Nat) (b : Schema) (r : SDLResult) : List Schema × PResult :=
  (store.set i (r.after.getD b), ⟨r.schema.map fun _ => i, r.errors, r.err⟩)

/-- One call. -/
def call (pf : Bytes → Option Nat) (c : SDLCall Orders) (store : List Schema) : Out (List Schema × PResult) :=
  match c.base with
  | none => (parseSDLDoc pf c.fuel c.ord c.input none).bind fun r => .ret (callNew store r)
  | some i =>
    match store[i]? with
    | none => .panic
    | some b => (parseSDLDoc pf c.fuel c.ord c.input (some b)).bind fun r => .ret (callOn store i b r)

/-- A history. -/
def calls (pf : Bytes → Option Nat) : List (SDLCall Orders) → List Schema → Out (List Schema × List PResult)
  | [], store => .ret (store, [])
  | c :: cs, store => (call pf c store).bind fun r => (calls pf cs r.1).bind fun q => .ret (q.1, r.2 :: q.2)

/-- The same calls, up to the orders of iteration over maps that hold pointers in one and values in the other. -/
def SameCall (c : SDLCall POrders) (d : SDLCall Orders) : Prop :=
  d.input = c.input ∧ d.base = c.base ∧ d.fuel = c.fuel ∧ d.ord.run = c.ord.run ∧ d.ord.build.dirs = c.ord.dirs

end GQL.Spec
