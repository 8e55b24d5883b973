/-
Model of the texts of the errors of the parser (language/parser.go).
-/
import Verif.Model.Parser
import Verif.Model.Json

namespace GQL

/-- The loop over `wants` in `unexpected` (parser.go:1756-1761): " or " after every one but the last. -/
def wantsText : List Bytes → Bytes
  | [] => []
  | [w] => w
  | w :: ws => w ++ b!" or " ++ wantsText ws

/-- `unexpected` (parser.go:1738-1766). -/
def unexpectedText (t : Token) (wants : List Bytes) : Bytes :=
  b!"parser error: unexpected token found at " ++ b!"line: " ++ itoa t.line ++ b!", column: " ++ itoa t.col ++ b!". Found: " ++ t.kind.str ++ b!" '" ++ t.lit ++ b!"'." ++
    if wants.length > 0 then b!" Wanted: " ++ wantsText wants ++ b!"." else []

/-- `err.Error()` for the errors of the parser (parser.go:600-603, 612-615, 696, 1738-1766).  The errors of `strconv.Atoi` and `strconv.ParseFloat` are
those of `strconv.NumError` of the standard library; for the literals that the lexer produces the reason is always the range, and quoting changes nothing. -/
def PErr.text : PErr → Bytes
  | .unexpected t wants => unexpectedText t wants
  | .atoi lit => b!"strconv.Atoi: parsing " ++ (b!"\"" ++ lit ++ b!"\"") ++ b!": " ++ b!"value out of range"
  | .parseFloat lit => b!"strconv.ParseFloat: parsing " ++ (b!"\"" ++ lit ++ b!"\"") ++ b!": " ++ b!"value out of range"
  | .todo => b!"TODO: see `parseDefinition`"

end GQL
