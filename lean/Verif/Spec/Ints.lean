/-
The integers of a document in the order they are written, and those of a token list.  Independent of the model of the parser.
-/
import Verif.Spec.Grammar

namespace GQL.Spec

mutual
def valInts : Value → List Int
  | .int i => [i]
  | .list vs => valsInts vs
  | .obj fs => fldsInts fs
  | .var _ => []
  | .float _ => []
  | .str _ => []
  | .bool _ => []
  | .null => []
  | .enum _ => []
def valsInts : List Value → List Int
  | [] => []
  | v :: vs => valInts v ++ valsInts vs
def fldsInts : List (Bytes × Value) → List Int
  | [] => []
  | (_, v) :: fs => valInts v ++ fldsInts fs
end

def argsInts (as : List Argument) : List Int := as.flatMap fun a => valInts a.value
def dirsInts (ds : List Directive) : List Int := ds.flatMap fun d => argsInts d.args
def defaultInts (d : Option Value) : List Int := (d.map valInts).getD []

mutual
def selInts : Selection → List Int
  | .field _ _ as ds ss => argsInts as ++ dirsInts ds ++ selsInts ss
  | .spread _ ds => dirsInts ds
  | .inline _ ds ss => dirsInts ds ++ selsInts ss
def selsInts : List Selection → List Int
  | [] => []
  | s :: ss => selInts s ++ selsInts ss
end

def inputInts (i : InputVal) : List Int := defaultInts i.default ++ dirsInts i.dirs
def fieldInts (f : FieldDef) : List Int := f.args.flatMap inputInts ++ dirsInts f.dirs
def typeInts (t : TypeDef) : List Int :=
  dirsInts t.dirs ++ t.fields.flatMap fieldInts ++ t.values.flatMap (fun v => dirsInts v.dirs) ++ t.inputs.flatMap inputInts

/-- The integers of a definition, in the order they are written. -/
def bodyInts : Body → List Int
  | .op o => o.vars.flatMap (fun v => defaultInts v.default) ++ dirsInts o.dirs ++ selsInts o.sels
  | .frag f => dirsInts f.dirs ++ selsInts f.sels
  | .schema s => dirsInts s.dirs
  | .type t => typeInts t
  | .directive d => d.args.flatMap inputInts
  | .schemaExt s => dirsInts s.dirs
  | .typeExt t => typeInts t

/-- The integers of a document, in the order they are written. -/
def docInts (defs : List Definition) : List Int := defs.flatMap fun d => bodyInts d.body

/-- The integer a literal denotes. -/
def litInt : Bytes → Int
  | 43 :: ds => decVal ds
  | 45 :: ds => -(decVal ds : Int)
  | ds => decVal ds

/-- The integers written in a token list. -/
def tokInts (ts : Toks) : List Int := (ts.filter fun t => t.kind == .intValue).map fun t => litInt t.lit

end GQL.Spec
