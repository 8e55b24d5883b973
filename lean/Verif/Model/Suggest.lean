/-
Model of validation/utils.go:212-318: lists of alternatives for error messages, and suggestions.

`strings.ToLower` and `levenshtein.ComputeDistance` (github.com/agnivade/levenshtein) are parameters `lower` and `lev`.
-/
import Verif.Model.Json
import Verif.Model.Context

namespace GQL

/-- `items[i]`: a panic if out of range. -/
def index {α : Type} (items : List α) (i : Nat) : Out α :=
  match items[i]? with
  | some a => .ret a
  | none => .panic

/-- `items[:n]`: a panic if out of range (the capacity of the slice, which may be larger, is not modelled). -/
def upTo {α : Type} (items : List α) (n : Nat) : Out (List α) := if n ≤ items.length then .ret (items.take n) else .panic

/-- `strings.Join`. -/
def join (sep : Bytes) : List Bytes → Bytes
  | [] => []
  | [a] => a
  | a :: b :: l => a ++ sep ++ join sep (b :: l)

/-- `OrList` (validation/utils.go:214-236). -/
def orList (items : List Bytes) : Out Bytes :=
  if items.length = 0 then .panic
  else if items.length = 1 then index items 0
  else if items.length = 2 then
    (index items 0).bind fun a => (index items 1).bind fun b => .ret (a ++ b!" or " ++ b)
  else
    (if items.length > 5 then upTo items 5 else .ret items).bind fun items =>
      (upTo items (items.length - 1)).bind fun rest => (index items (items.length - 1)).bind fun last =>
        .ret (join b!", " rest ++ b!", or " ++ last)

/-- The loop of `QuotedOrList` (validation/utils.go:240-242): it writes to the slice it was given. -/
def quoteItems (items : List Bytes) : List Bytes := items.map fun i => b!"\"" ++ i ++ b!"\""

/-- `QuotedOrList` (validation/utils.go:239-245): what it returns, and the items of the caller's slice afterwards. -/
def quotedOrList (items : List Bytes) : Out Bytes × List Bytes := (orList (quoteItems items), quoteItems items)

section
variable (lev : Bytes → Bytes → Nat) (lower : Bytes → Bytes)

/-- `lexicalDistance` (validation/utils.go:304-318). -/
def lexicalDistance (a b : Bytes) : Nat :=
  if a == b then 0 else if lower a == lower b then 1 else lev (lower a) (lower b)

/-- The threshold (validation/utils.go:258-267). -/
def threshold (input option : Bytes) : Nat :=
  let it := input.length / 2
  let ot := option.length / 2
  let t := if ot > it then ot else it
  if t < 1 then 1 else t

/-- The first loop of `SuggestionList` (validation/utils.go:257-274). -/
def optionsByDistance (input : Bytes) : List Bytes → GMap Nat → GMap Nat
  | [], m => m
  | o :: os, m =>
    let d := lexicalDistance lev lower input o
    optionsByDistance input os (if d ≤ threshold input o then mapSet m o d else m)

/-- `optionsByDistance[o]`: zero if it is not there. -/
def mapGet (m : GMap Nat) (o : Bytes) : Nat := (m.lookup o).getD 0

/-- The function that `SuggestionList` passes to `sort.Slice` (validation/utils.go:283-290). -/
def closer (m : GMap Nat) (a b : Bytes) : Bool :=
  if mapGet m a = mapGet m b then decide (a.length > b.length) else decide (mapGet m a < mapGet m b)

/-- `SuggestionList` (validation/utils.go:251-293). -/
def suggestionList (s : SliceSort Bytes) (input : Bytes) (options : List Bytes) : List Bytes :=
  let m := optionsByDistance lev lower input options []
  s.sort (closer m) (options.filter fun o => (m.lookup o).isSome)

end

end GQL
