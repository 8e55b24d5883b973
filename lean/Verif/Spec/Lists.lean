/-
Specification of the linked lists: what each operation means on mathematical sequences, for a program with any number of
list variables.
-/
namespace GQL.Spec

/-- One statement of a program that uses lists of `α` in the variables 0, 1, 2, ... -/
inductive Cmd (α : Type) where
  /-- `x = x.Add(d)` -/
  | add (x : Nat) (d : α)
  /-- `x = x.Reverse()` -/
  | reverse (x : Nat)
  /-- `x.Join(y)`; `y` is not used any more afterwards -/
  | join (x y : Nat)
  /-- `x = x.Insert(d, pos)` -/
  | insert (x : Nat) (d : α) (pos : Int)
  /-- `x = FromSlice(ds)` -/
  | fromSlice (x : Nat) (ds : List α)

/-- The contents of the variables; `none` for a variable that was given away to `Join`. -/
abbrev Vars (α : Type) := Nat → Option (List α)

def Vars.set {α : Type} (s : Vars α) (x : Nat) (v : Option (List α)) : Vars α := fun y => if y = x then v else s y

/-- `d` inserted into `l` so that `pos` items follow it; below 0 counts as 0, more than the length as the length. -/
def insertAt {α : Type} (l : List α) (d : α) (pos : Int) : List α :=
  let k := min pos.toNat l.length
  l.take (l.length - k) ++ d :: l.drop (l.length - k)

/-- The meaning of a statement on sequences.  `none`: the statement uses a list that was given away, or joins a list with
itself. -/
def step {α : Type} (s : Vars α) : Cmd α → Option (Vars α)
  | .add x d => (s x).map fun l => s.set x (some (d :: l))
  | .reverse x => (s x).map fun l => s.set x (some l.reverse)
  | .join x y =>
    match s x, s y with
    | some l, some m => if x = y then none else some ((s.set x (some (l ++ m))).set y none)
    | _, _ => none
  | .insert x d pos => (s x).map fun l => s.set x (some (insertAt l d pos))
  | .fromSlice x ds => some (s.set x (some ds))

/-- The same for a program. -/
def run {α : Type} (s : Vars α) : List (Cmd α) → Option (Vars α)
  | [] => some s
  | c :: cs => (step s c).bind fun s' => run s' cs

/-- No statement of the program joins something to an empty list. -/
def noEmptyJoin {α : Type} (s : Vars α) : List (Cmd α) → Prop
  | [] => True
  | c :: cs =>
    (∀ x y, c = .join x y → s x ≠ some []) ∧ ∀ s', step s c = some s' → noEmptyJoin s' cs

/-- A call on a generator. -/
inductive GenCall where
  | next
  | reset

/-- What the calls of `Next` should return: the items with their indices, then `(zero, -1)` for ever; `Reset` starts again. -/
def genCalls {α : Type} (zero : α) (l : List α) : Nat → List GenCall → List (α × Int)
  | _, [] => []
  | i, .next :: cs =>
    (match l[i]? with
      | some d => (d, (i : Int))
      | none => (zero, -1)) :: genCalls zero l (i + 1) cs
  | _, .reset :: cs => genCalls zero l 0 cs

end GQL.Spec
