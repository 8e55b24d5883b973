/-
Model of ast/lists.go and graphql/lists.go, with the pointers and the mutation.

The thirteen list types of these files are generated from one template (tools/listgen/main.go) and differ only in the names of
the types and receivers, so there is one model, for an arbitrary item type.  A heap is the list of all nodes allocated so far; an
address is an index; a pointer is an address or nil (`none`).  Dereferencing nil or an address that
does not exist is a panic.  Loops follow `next`; they take as fuel one more than the number of nodes of the heap (a
list without cycle is not longer).
-/
import Verif.Model.Basic

namespace GQL

/-- `type Arguments struct { Data; next; pos }` (ast/lists.go:6-10). -/
structure Node (α : Type) where
  data : α
  next : Option Nat
  pos : Int

/-- All nodes allocated so far. -/
abbrev Heap (α : Type) := List (Node α)

/-- A pointer to a list. -/
abbrev Ptr := Option Nat

section
variable {α : Type}

/-- `Add` (ast/lists.go:13-25): a new node in front. -/
def Heap.add (h : Heap α) (p : Ptr) (d : α) : Out (Heap α × Ptr) :=
  match p with
  | none => .ret (h ++ [⟨d, p, 0⟩], some h.length)
  | some a =>
    match h[a]? with
    | none => .panic
    | some nd => .ret (h ++ [⟨d, p, nd.pos + 1⟩], some h.length)

/-- `Len` (ast/lists.go:137-142). -/
def Heap.len (h : Heap α) (p : Ptr) : Out Int :=
  match p with
  | none => .ret 0
  | some a =>
    match h[a]? with
    | none => .panic
    | some nd => .ret (nd.pos + 1)

/-- The loop of `ForEach` (ast/lists.go:36-45): the calls of `fn`, in order. -/
def Heap.forEachLoop (h : Heap α) : Nat → Nat → Nat → Out (List (α × Nat))
  | 0, _, _ => .oof
  | f+1, iter, a =>
    match h[a]? with
    | none => .panic
    | some nd =>
      match nd.next with
      | none => .ret [(nd.data, iter)]
      | some b =>
        match Heap.forEachLoop h f (iter + 1) b with
        | .ret l => .ret ((nd.data, iter) :: l)
        | .panic => .panic
        | .oof => .oof

/-- `ForEach` (ast/lists.go:28-46). -/
def Heap.forEach (h : Heap α) (p : Ptr) : Out (List (α × Nat)) :=
  match p with
  | none => .ret []
  | some a => Heap.forEachLoop h (h.length + 1) 0 a

/-- The loop of `Reverse` (ast/lists.go:153-161). -/
def Heap.reverseLoop : Nat → Heap α → Ptr → Ptr → Int → Out (Heap α × Ptr)
  | 0, _, _, _, _ => .oof
  | _+1, h, none, prev, _ => .ret (h, prev)
  | f+1, h, some a, prev, pos =>
    match h[a]? with
    | none => .panic
    | some nd => Heap.reverseLoop f (h.set a ⟨nd.data, prev, pos⟩) nd.next (some a) (pos + 1)

/-- `Reverse` (ast/lists.go:147-164). -/
def Heap.reverse (h : Heap α) (p : Ptr) : Out (Heap α × Ptr) := Heap.reverseLoop (h.length + 1) h p none 0

/-- The loop of `Join` (ast/lists.go:126-131): renumbers the nodes; returns the last one. -/
def Heap.joinLoop : Nat → Heap α → Nat → Ptr → Int → Out (Heap α × Nat)
  | 0, _, _, _, _ => .oof
  | _+1, h, last, none, _ => .ret (h, last)
  | f+1, h, _, some a, pos =>
    match h[a]? with
    | none => .panic
    | some nd => Heap.joinLoop f (h.set a { nd with pos := pos }) a nd.next (pos - 1)

/-- `Join` (ast/lists.go:118-134). -/
def Heap.join (h : Heap α) (p q : Ptr) : Out (Heap α) :=
  match p with
  | none => .ret h
  | some a =>
    match Heap.len h p, Heap.len h q with
    | .ret n, .ret m =>
      match Heap.joinLoop (h.length + 1) h a p (n + m - 1) with
      | .ret (h', last) =>
        match h'[last]? with
        | none => .panic
        | some nd => .ret (h'.set last { nd with next := q })
      | .panic => .panic
      | .oof => .oof
    | _, _ => .panic

/-- The loop of `Insert` that looks for the node number `pos` (ast/lists.go:102-104). -/
def Heap.findPos (h : Heap α) (pos : Int) : Nat → Ptr → Out Nat
  | 0, _ => .oof
  | _+1, none => .panic
  | f+1, some a =>
    match h[a]? with
    | none => .panic
    | some nd => if nd.pos ≠ pos then Heap.findPos h pos f nd.next else .ret a

/-- `Insert` (ast/lists.go:92-115). -/
def Heap.insert (h : Heap α) (p : Ptr) (d : α) (pos : Int) : Out (Heap α × Ptr) :=
  match Heap.len h p with
  | .panic => .panic
  | .oof => .oof
  | .ret n =>
    match p with
    | none => Heap.add h p d
    | some a =>
      if pos ≥ n then Heap.add h p d
      else
        let pos := if pos < 0 then 0 else pos
        match Heap.findPos h pos (h.length + 1) p with
        | .panic => .panic
        | .oof => .oof
        | .ret mid =>
          match h[mid]? with
          | none => .panic
          | some md =>
            let bot := md.next
            let h1 := h.set mid { md with next := none }
            match h1[a]? with
            | none => .panic
            | some hd =>
              let h2 := h1.set a { hd with pos := hd.pos - md.pos }
              match Heap.add h2 bot d with
              | .panic => .panic
              | .oof => .oof
              | .ret (h3, bot') =>
                match Heap.join h3 p bot' with
                | .panic => .panic
                | .oof => .oof
                | .ret h4 => .ret (h4, p)

/-- The loop of `ArgumentsFromSlice` (ast/lists.go:169-171). -/
def Heap.addAll (h : Heap α) (p : Ptr) : List α → Out (Heap α × Ptr)
  | [] => .ret (h, p)
  | d :: ds =>
    match Heap.add h p d with
    | .ret (h', p') => Heap.addAll h' p' ds
    | .panic => .panic
    | .oof => .oof

/-- `ArgumentsFromSlice` (ast/lists.go:167-173). -/
def Heap.fromSlice (h : Heap α) (ds : List α) : Out (Heap α × Ptr) :=
  match Heap.addAll h none ds with
  | .ret (h', p) => Heap.reverse h' p
  | .panic => .panic
  | .oof => .oof

/-- `ArgumentsGenerator` (ast/lists.go:50-55). -/
structure Gen where
  original : Ptr
  current : Ptr
  iter : Int
  length : Int

/-- `Generator` (ast/lists.go:83-89): `original` is not set. -/
def Heap.generator (h : Heap α) (p : Ptr) : Out Gen :=
  match Heap.len h p with
  | .ret n => .ret ⟨none, p, 0, n⟩
  | .panic => .panic
  | .oof => .oof

/-- `Next` (ast/lists.go:59-71); the zero value of the item type is `default`. -/
def Heap.next [Inhabited α] (h : Heap α) (g : Gen) : Out ((α × Int) × Gen) :=
  match g.current with
  | none => .ret ((default, -1), g)
  | some a =>
    match h[a]? with
    | none => .panic
    | some nd => .ret ((nd.data, g.iter), { g with current := nd.next, iter := g.iter + 1 })

/-- `Reset` (ast/lists.go:75-78). -/
def Gen.reset (g : Gen) : Gen := { g with current := g.original, iter := 0 }

/-- The state of a Go program that uses lists of `α`: the heap, and the variables and struct fields that hold pointers to lists, which are numbered. -/
structure Mem (α : Type) where
  heap : Heap α
  vars : Nat → Ptr

/-- `x = p` -/
def setPtr (v : Nat → Ptr) (x : Nat) (p : Ptr) : Nat → Ptr := fun y => if y = x then p else v y

/-- The start: no node allocated, every variable nil. -/
def Mem.init : Mem α := ⟨[], fun _ => none⟩

end

end GQL
