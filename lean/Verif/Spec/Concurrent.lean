/-
Calls from several goroutines: what the caller has to respect, what a data race is, and what the results would be if the calls had been made one after the
other.
-/
import Verif.Model.Conc
import Verif.Spec.Store

namespace GQL.Conc

/-! ### What the caller has to respect -/

/-- A running call was given schema `i`. -/
def Used (s : State) (i : Nat) : Prop := ∃ t th, s.threads t = some th ∧ th.call.base = some i

/-- `ParseSDLDoc` is running with schema `i`. -/
def Extended (s : State) (i : Nat) : Prop := ∃ t input fuel ord p, s.threads t = some ⟨.sdl input (some i) fuel ord, p⟩

/-- A schema is given to `ParseSDLDoc` only if no running call uses it, and to `ParseDoc` (or the caller looks at it) only if `ParseSDLDoc` is not
running with it. -/
def Careful (s : State) : Call → Prop
  | .sdl _ (some i) _ _ => ¬ Used s i
  | .sdl _ none _ _ => True
  | .doc _ (some i) => ¬ Extended s i
  | .doc _ none => True
  | .look i => ¬ Extended s i

/-- The caller respects nothing. -/
def Anything (_ : State) (_ : Call) : Prop := True

/-! ### Data races -/

/-- The next step writes the cell at `b`. -/
inductive NextWrites : Prog Result → Nat → Prop where
  | write {b : Nat} {c : Cell} {k : Prog Result} : NextWrites (.write b c k) b

/-- The next step reads the cell at `b`. -/
inductive NextReads : Prog Result → Nat → Prop where
  | read {b : Nat} {k : Cell → Prog Result} : NextReads (.read b k) b

/-- Two goroutines are about to access the same cell, and one of them writes it. -/
def Race (s : State) : Prop :=
  ∃ t u x y a, t ≠ u ∧ s.threads t = some x ∧ s.threads u = some y ∧ NextWrites x.prog a ∧ (NextWrites y.prog a ∨ NextReads y.prog a)

/-- The program, if it runs on `m` alone and `m` does not change, reads the cell at `b`. -/
inductive Reads (m : Memory) {α : Type} : Prog α → Nat → Prop where
  | here {a : Nat} {k : Cell → Prog α} : Reads m (.read a k) a
  | later {a b : Nat} {c : Cell} {k : Cell → Prog α} (h : m a = some c) (hr : Reads m (k c) b) : Reads m (.read a k) b

/-- The program, if it runs on `m` alone and `m` does not change, returns `v`. -/
inductive Returns (m : Memory) {α : Type} : Prog α → α → Prop where
  | done {v : α} : Returns m (.done (.ret v)) v
  | read {a : Nat} {c : Cell} {k : Cell → Prog α} {v : α} (h : m a = some c) (hr : Returns m (k c) v) : Returns m (.read a k) v

/-! ### One after the other -/

/-- The schema with a number, as a value. -/
inductive Given (st : List Schema) : Option Nat → Option Schema → Prop where
  | nil : Given st none none
  | at {i : Nat} {v : Schema} (h : st[i]? = some v) : Given st (some i) (some v)

/-- The schemas are the values `st`; the call is made and nothing else happens until it is over.  `CallNow pf st c o` says what comes out: the values of the
schemas afterwards, and the result. -/
inductive CallNow (pf : Bytes → Option Nat) (st : List Schema) : Call → Out (List Schema × Result) → Prop where
  | look {i : Nat} {v : Schema} (h : st[i]? = some v) : CallNow pf st (.look i) (.ret (st, .contents v))
  | doc {input : Bytes} {base : Option Nat} {v : Option Schema} (h : Given st base v) :
      CallNow pf st (.doc input base) ((GQL.parseDoc pf input v).bind fun r => .ret (st, .doc r))
  | sdl {input : Bytes} {base : Option Nat} {fuel : Nat} {ord : POrders} {d : Spec.SDLCall Orders} (h : Spec.SameCall ⟨input, base, fuel, ord⟩ d) :
      CallNow pf st (.sdl input base fuel ord) ((Spec.call pf d st).bind fun r => .ret (r.1, .sdl r.2))

/-- The calls were made one after the other, in this order, with these results; `st` is what the schemas are then. -/
inductive Sequential (pf : Bytes → Option Nat) : List (Call × Result) → List Schema → Prop where
  | nil : Sequential pf [] []
  | snoc {l : List (Call × Result)} {st st' : List Schema} {c : Call} {r : Result} (h : Sequential pf l st) (hc : CallNow pf st c (.ret (st', r))) :
      Sequential pf (l ++ [(c, r)]) st'

end GQL.Conc
