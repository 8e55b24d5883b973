/-
Writers (`io.Writer`, `io.StringWriter`) as the documentation of package io describes them.
-/
import Verif.Model.Basic

namespace GQL.Spec

/-- A writer with state `σ`.  A write gives the new state, the number of bytes that were taken, and whether there was an error. -/
structure Writer (σ : Type) where
  write : σ → Bytes → σ × Nat × Bool

/-- The state after a sequence of writes. -/
def Writer.after {σ : Type} (w : Writer σ) : σ → List Bytes → σ
  | s, [] => s
  | s, x :: xs => Writer.after w (w.write s x).1 xs

/-- `bytes.Buffer`: all is appended. -/
def buffer : Writer Bytes := ⟨fun s x => (s ++ x, x.length, false)⟩

/-- What the documentation of `io.Writer` asks for: `got s` is what has been taken so far; a write takes the first `n` bytes, and reports an
error if these are not all. -/
structure Lawful {σ : Type} (w : Writer σ) (got : σ → Bytes) : Prop where
  takes : ∀ s x, got (w.write s x).1 = got s ++ x.take (w.write s x).2.1
  bound : ∀ s x, (w.write s x).2.1 ≤ x.length
  short : ∀ s x, (w.write s x).2.1 < x.length → (w.write s x).2.2 = true

/-- A writer that takes nothing after its first error (a full disk, a closed connection); `broken` are the states after an error. -/
structure StaysBroken {σ : Type} (w : Writer σ) (broken : σ → Prop) : Prop where
  breaks : ∀ s x, (w.write s x).2.2 = true → broken (w.write s x).1
  nothing : ∀ s x, broken s → (w.write s x).2.1 = 0
  stays : ∀ s x, broken s → broken (w.write s x).1

/-- A disk with room for `n` bytes. -/
def disk (n : Nat) : Writer Bytes :=
  ⟨fun s x => (s ++ x.take (n - s.length), (x.take (n - s.length)).length, decide (n < s.length + x.length))⟩

/-- A writer that fails at one write, the `k`-th, takes nothing of it, and works again afterwards. -/
def hiccup (k : Nat) : Writer (Nat × Bytes) :=
  ⟨fun s x => if s.1 = k then ((s.1 + 1, s.2), 0, true) else ((s.1 + 1, s.2 ++ x), x.length, false)⟩

end GQL.Spec
