/-
Common vocabulary of the model.

A Go `byte` is modelled by a natural number; every theorem therefore also holds
for the values 0..255.  A Go `string` or `[]byte` is a list of bytes.
-/
namespace GQL

/-- A Go `byte` (any natural number; real bytes are < 256). -/
abbrev Byte := Nat
/-- A Go `string` / `[]byte`: a list of bytes. -/
abbrev Bytes := List Nat

open Lean in
/-- `b!"abc"` is the list of UTF-8 bytes of the literal, expanded at elaboration time. -/
macro:max "b!" s:str : term => do
  let bs := s.getString.toUTF8.toList.map (fun b => b.toNat)
  let mut t ← `(([] : List Nat))
  for n in bs.reverse do
    t ← `(List.cons ($(quote n) : Nat) $t)
  return t

open Lean in
/-- `c!"abc"` is the list of characters of the literal, expanded at elaboration time. -/
macro:max "c!" s:str : term => do
  let mut t ← `(([] : List Char))
  for c in s.getString.toList.reverse do
    t ← `(List.cons $(Syntax.mkCharLit c) $t)
  return t

/-- Outcome of running Go code: it returns, it panics, or the model ran out of fuel
(which the totality theorems exclude). -/
inductive Out (α : Type) where
  | ret (a : α)
  | panic
  | oof
  deriving DecidableEq, Repr

/-- Sequencing of outcomes: a panic or a divergence propagates. -/
def Out.bind {α β : Type} (x : Out α) (f : α → Out β) : Out β :=
  match x with
  | .ret a => f a
  | .panic => .panic
  | .oof => .oof

instance : Monad Out where
  pure := .ret
  bind := Out.bind

/-- `x` returned normally (neither a panic nor out of fuel). -/
def Out.returns {α : Type} (x : Out α) : Prop := ∃ a, x = .ret a

/-- Go slice expression `b[i:j]`; `none` is the run-time panic "slice bounds out of range". -/
def slice (b : Bytes) (i j : Nat) : Option Bytes :=
  if i ≤ j ∧ j ≤ b.length then some ((b.drop i).take (j - i)) else none

end GQL
