/-
Model of lab/server/response.go: writing a response as JSON.

`fmtF` is `strconv.FormatFloat(x, 'f', 5, 64)` of the float with the given 64-bit pattern (standard library, a parameter); `strconv.Itoa` is `itoa` (Model/Json).
-/
import Verif.Model.Json

namespace GQL

/-- `ResponseValue` and `ResponseObjectField` (lab/server/response.go:27-41): the kind together with the field it selects; `other` is a kind that is none of the constants. -/
inductive RValue where
  | int (i : Int)
  | float (bits : Nat)
  | str (s : Bytes)
  | bool (b : Bool)
  | null
  | arr (vs : List RValue)
  | obj (fs : List (Bytes × RValue))
  | other
  deriving Inhabited

section
variable (fmtF : Nat → Bytes)

mutual
/-- `ResponseValue.MarshalGraphQL` (lab/server/response.go:47-104): what is written to the buffer, or an error (`none`). -/
def RValue.marshal : RValue → Option Bytes
  | .int i => some (itoa i)
  | .float bits => some (fmtF bits)
  | .str s => some (b!"\"" ++ s ++ b!"\"")
  | .bool b => some (if b then b!"true" else b!"false")
  | .null => some b!"null"
  | .arr vs => (marshalArr vs).map fun t => b!"[" ++ t ++ b!"]"
  | .obj fs => (marshalObj fs).map fun t => b!"{" ++ t ++ b!"}"
  | .other => none
/-- The loop over an array (lab/server/response.go:69-78): a comma after each element that is not the last one, i.e. while elements follow. -/
def marshalArr : List RValue → Option Bytes
  | [] => some []
  | v :: vs => v.marshal.bind fun t => (marshalArr vs).map fun u => t ++ (if vs.isEmpty then [] else b!",") ++ u
/-- The loop over the fields of an object (lab/server/response.go:84-97). -/
def marshalObj : List (Bytes × RValue) → Option Bytes
  | [] => some []
  | (n, v) :: fs => v.marshal.bind fun t => (marshalObj fs).map fun u =>
      b!"\"" ++ n ++ b!"\"" ++ b!":" ++ t ++ (if fs.isEmpty then [] else b!",") ++ u
end

/-- `Response.MarshalGraphQL` (lab/server/response.go:113-134); `Errors` is not used. -/
def marshalResponse (data : RValue) : Option Bytes :=
  match data with
  | .null | .obj _ => (data.marshal fmtF).map fun t => b!"{" ++ b!"\"data\":" ++ t ++ b!"}"
  | _ => none

end

end GQL
