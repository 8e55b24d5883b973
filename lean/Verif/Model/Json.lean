/-
Model of graphql/errors.go, `MarshalJSON` and `SortErrors`, and of what they use from the standard library: `strconv.FormatUint`, `strconv.Itoa`,
the order of strings, and `sort.Slice`.
-/
import Verif.Model.Errors

namespace GQL

/-- The decimal digits of `n`, for `n < fuel`. -/
def decimalLoop : Nat → Nat → Bytes
  | 0, _ => []
  | fuel + 1, n => if n < 10 then [48 + n] else decimalLoop fuel (n / 10) ++ [48 + n % 10]

/-- The decimal digits of `n`: `strconv.FormatUint(n, 10)`. -/
def decimal (n : Nat) : Bytes := decimalLoop (n + 1) n

/-- `strconv.Itoa`. -/
def itoa (i : Int) : Bytes := if i < 0 then 45 :: decimal i.natAbs else decimal i.natAbs

/-- The conversion `uint64(i)` of an `int`. -/
def toUint64 (i : Int) : Nat := (i % 18446744073709551616).toNat

/-- What `MarshalJSON` writes for the entry with index `i` of a list (graphql/errors.go:36-47, 53-66): a comma before all but the first. -/
def entries {α : Type} (f : α → Bytes) (l : List α) : Bytes :=
  l.zipIdx.flatMap fun p => (if p.2 > 0 then b!"," else []) ++ f p.1

/-- One location (graphql/errors.go:41-46). -/
def marshalLocation (l : Location) : Bytes :=
  b!"{" ++ b!"\"line\":" ++ decimal (toUint64 l.line) ++ b!",\"column\":" ++ decimal (toUint64 l.col) ++ b!"}"

/-- One step of the path (graphql/errors.go:58-65). -/
def marshalPathNode : PathNode → Bytes
  | .str s => b!"\"" ++ s ++ b!"\""
  | .int i => itoa i

/-- `MarshalJSON` (graphql/errors.go:27-73); its error is always nil. -/
def marshalJSON (e : GErr) : Bytes :=
  b!"{" ++ b!"\"message\":\"" ++ e.message ++ b!"\"" ++
    (if e.locations.length > 0 then b!",\"locations\":[" ++ entries marshalLocation e.locations ++ b!"]" else []) ++
    (if e.path.length > 0 then b!",\"path\":[" ++ entries marshalPathNode e.path ++ b!"]" else []) ++ b!"}"

/-- `a < b` for Go strings: the order of their bytes. -/
def bytesLess : Bytes → Bytes → Bool
  | _, [] => false
  | [], _ :: _ => true
  | a :: as, b :: bs => if a < b then true else if b < a then false else bytesLess as bs

/-- A strict weak order, which `sort.Slice` requires of its argument. -/
structure StrictWeak {α : Type} (less : α → α → Bool) : Prop where
  irrefl : ∀ a, less a a = false
  trans : ∀ a b c, less a b = true → less b c = true → less a c = true
  ties : ∀ a b c, less a b = false → less b c = false → less a c = false

/-- `sort.Slice`: what the package's documentation promises.  It rearranges the slice, and if `less` is a strict weak order, nothing is less than what
comes before it.  Nothing is said about the order of ties ("The sort is not guaranteed to be stable"). -/
structure SliceSort (α : Type) where
  sort : (α → α → Bool) → List α → List α
  perm : ∀ less l, (sort less l).Perm l
  sorted : ∀ less l, StrictWeak less → (sort less l).Pairwise fun a b => less b a = false

/-- `SortErrors` (graphql/errors.go:76-96).  `Add` puts each error before those added earlier (graphql/lists.go:13-25), and `ForEach` starts with the
last one added; a list is given in the order of `ForEach`. -/
def sortErrors (s : SliceSort GErr) (errs : List GErr) : List GErr :=
  (s.sort (fun a b => bytesLess (marshalJSON a) (marshalJSON b)) errs).foldl (fun sorted e => e :: sorted) []

end GQL
