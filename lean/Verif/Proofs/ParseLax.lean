/-
Every derivation in the grammar of the specification is one in the lax grammar.
-/
import Verif.Proofs.ParseLoop

namespace GQL
open Spec

theorem many_mono {α : Type} {R S : Toks → α → Toks → Prop} (h : ∀ ts a r, R ts a r → S ts a r)
    {ts rest : Toks} {as : List α} (hm : Many R ts as rest) : Many S ts as rest := by
  induction hm with
  | nil => exact .nil _
  | cons h1 _ ih => exact .cons (h _ _ _ h1) ih

theorem sepBy_mono {α : Type} {R S : Toks → α → Toks → Prop} (h : ∀ ts a r, R ts a r → S ts a r) {l : Bytes}
    {ts rest : Toks} {as : List α} (hm : SepBy R l ts as rest) : SepBy S l ts as rest := by
  induction hm with
  | one h1 h2 => exact .one (h _ _ _ h1) h2
  | cons h1 h2 _ ih => exact .cons (h _ _ _ h1) h2 ih

section
variable {pf : Bytes → Option Nat}

theorem typeRef_lax {t} {ts rest : Toks} (h : TypeRef false ts t rest) : TypeRef true ts t rest := by
  induction t generalizing ts rest with
  | named n b => cases h with | named h1 h2 => exact .named h1 h2
  | list t b ih => cases h with | list h1 h2 h3 h4 => exact .list h1 (ih h2) h3 h4
  | listNil b => cases h with | broken h => cases h

theorem namedType_lax {ts t rest} (h : NamedType false ts t rest) : NamedType true ts t rest := by
  cases h with | mk h1 h2 h3 => exact .mk h1 h2 (.inr rfl)

theorem memberType_lax {ts t rest} (h : MemberType false ts t rest) : MemberType true ts t rest :=
  ⟨typeRef_lax h.1, .inl rfl⟩

mutual
theorem val_lax {c ts v rest} : Val pf false c ts v rest → Val pf true c ts v rest
  | .var _ h1 h2 => .var (.inr rfl) h1 h2
  | .int h h2 h3 => .int h h2 h3
  | .float h h2 => .float h h2
  | .str h => .str h
  | .tru h => .tru h
  | .fls h => .fls h
  | .null h => .null h
  | .enum h h2 h3 h4 => .enum h h2 h3 h4
  | .list h1 h2 h3 => .list h1 (vals_lax h2) h3
  | .obj h1 h2 h3 => .obj h1 (flds_lax h2) h3
theorem vals_lax {c ts vs rest} : Vals pf false c ts vs rest → Vals pf true c ts vs rest
  | .nil _ => .nil _
  | .cons h1 h2 => .cons (val_lax h1) (vals_lax h2)
theorem flds_lax {c ts fs rest} : Flds pf false c ts fs rest → Flds pf true c ts fs rest
  | .nil _ => .nil _
  | .cons h1 h2 h3 h4 => .cons h1 h2 (val_lax h3) (flds_lax h4)
end

theorem default_lax {ts d rest} (h : Default pf false ts d rest) : Default pf true ts d rest := by
  cases h with
  | none h => exact .none h
  | some h1 h2 => exact .some h1 (val_lax h2)

theorem arg_lax {c ts d rest} (h : Arg pf false c ts d rest) : Arg pf true c ts d rest := by
  cases h with | mk h1 h2 h3 => exact .mk h1 h2 (val_lax h3)

theorem args_lax {c ts d rest} (h : Args pf false c ts d rest) : Args pf true c ts d rest := by
  cases h with
  | none h => exact .none h
  | some h1 h2 h3 _ => exact .some h1 (many_mono (fun _ _ _ h => arg_lax h) h2) h3 (.inr rfl)

theorem dir_lax {c loc ts d rest} (h : Dir pf false c loc ts d rest) : Dir pf true c loc ts d rest := by
  cases h with | mk h1 h2 h3 => exact .mk h1 h2 (args_lax h3)

theorem dirs_lax {c loc ts d rest} (h : Dirs pf false c loc ts d rest) : Dirs pf true c loc ts d rest :=
  ⟨many_mono (fun _ _ _ h => dir_lax h) h.1, h.2⟩

theorem typeCond_lax {ts t rest} (h : TypeCond false ts t rest) : TypeCond true ts t rest := by
  cases h with | mk h1 h2 => exact .mk h1 (namedType_lax h2)

theorem optCond_lax {ts t rest} (h : OptCond false ts t rest) : OptCond true ts t rest := by
  cases h with
  | none h => exact .none h
  | some h => exact .some (typeCond_lax h)

mutual
theorem sel_lax {ts s rest} : Sel pf false ts s rest → Sel pf true ts s rest
  | .leaf h1 h2 h3 h4 => .leaf h1 (args_lax h2) (dirs_lax h3) h4
  | .node h1 h2 h3 h4 => .node h1 (args_lax h2) (dirs_lax h3) (selSet_lax h4)
  | .spread h1 h2 h3 h4 => .spread h1 h2 h3 (dirs_lax h4)
  | .inline h1 h2 h3 h4 => .inline h1 (optCond_lax h2) (dirs_lax h3) (selSet_lax h4)
theorem sels_lax {ts s rest} : Sels pf false ts s rest → Sels pf true ts s rest
  | .one h => .one (sel_lax h)
  | .cons h1 h2 => .cons (sel_lax h1) (sels_lax h2)
theorem selSet_lax {ts s rest} : SelSet pf false ts s rest → SelSet pf true ts s rest
  | .mk h1 h2 h3 => .mk h1 (sels_lax h2) h3
end

theorem varDefn_lax {ts d rest} (h : VarDefn pf false ts d rest) : VarDefn pf true ts d rest := by
  cases h with
  | mk h1 h2 h3 h4 h5 => exact .mk h1 h2 h3 (typeRef_lax h4) (default_lax h5)

theorem varDefns_lax {ts d rest} (h : VarDefns pf false ts d rest) : VarDefns pf true ts d rest := by
  cases h with
  | none h => exact .none h
  | some h1 h2 h3 h4 => exact .some h1 (many_mono (fun _ _ _ h => varDefn_lax h) h2) h3 h4

theorem opDefn_lax {ts d rest} (h : OpDefn pf false ts d rest) : OpDefn pf true ts d rest := by
  cases h with
  | shorthand h => exact .shorthand (selSet_lax h)
  | full h1 h2 h3 h4 h5 => exact .full h1 h2 (varDefns_lax h3) (dirs_lax h4) (selSet_lax h5)

theorem fragDefn_lax {ts d rest} (h : FragDefn pf false ts d rest) : FragDefn pf true ts d rest := by
  cases h with
  | mk h1 h2 h3 h4 h5 h6 => exact .mk h1 h2 h3 (typeCond_lax h4) (dirs_lax h5) (selSet_lax h6)

theorem opTypeDefn_lax {ts d rest} (h : OpTypeDefn false ts d rest) : OpTypeDefn true ts d rest := by
  cases h with | mk h1 h2 h3 => exact .mk h1 h2 (namedType_lax h3)

theorem opTypeDefns_lax {ts d rest} (h : OpTypeDefns false ts d rest) : OpTypeDefns true ts d rest := by
  cases h with | mk h1 h2 h3 h4 => exact .mk h1 (many_mono (fun _ _ _ h => opTypeDefn_lax h) h2) h3 h4

theorem schemaDefn_lax {ts d rest} (h : SchemaDefn pf false ts d rest) : SchemaDefn pf true ts d rest := by
  cases h with | mk h1 h2 h3 => exact .mk h1 (dirs_lax h2) (opTypeDefns_lax h3)

theorem schemaExtn_lax {ts d rest} (h : SchemaExtn pf false ts d rest) : SchemaExtn pf true ts d rest := by
  cases h with
  | ops h1 h2 h3 => exact .ops h1 (dirs_lax h2) (opTypeDefns_lax h3)
  | dirs h1 h2 h3 h4 => exact .dirs h1 (dirs_lax h2) h3 h4

theorem inputValue_lax {loc ts d rest} (h : InputValue pf false loc ts d rest) : InputValue pf true loc ts d rest := by
  cases h with
  | mk h1 h2 h3 h4 h5 h6 => exact .mk h1 h2 h3 (typeRef_lax h4) (default_lax h5) (dirs_lax h6)

theorem argsDef_lax {ts d rest} (h : ArgsDef pf false ts d rest) : ArgsDef pf true ts d rest := by
  cases h with
  | none h => exact .none h
  | some h1 h2 h3 h4 => exact .some h1 (many_mono (fun _ _ _ h => inputValue_lax h) h2) h3 h4

theorem dirDefn_lax {desc ts d rest} (h : DirDefn pf false desc ts d rest) : DirDefn pf true desc ts d rest := by
  cases h with | mk h1 h2 h3 h4 h5 h6 h7 => exact .mk h1 h2 h3 (argsDef_lax h4) h5 h6 h7

theorem implements_lax {ts d rest} (h : Implements false ts d rest) : Implements true ts d rest := by
  cases h with
  | none h => exact .none h
  | some h1 h2 h3 => exact .some h1 h2 (sepBy_mono (fun _ _ _ h => memberType_lax h) h3)

theorem fieldDefn_lax {ts d rest} (h : FieldDefn pf false ts d rest) : FieldDefn pf true ts d rest := by
  cases h with
  | mk h1 h2 h3 h4 h5 h6 => exact .mk h1 h2 (argsDef_lax h3) h4 (typeRef_lax h5) (dirs_lax h6)

theorem block_mono {α : Type} {R S : Toks → α → Toks → Prop} (hR : ∀ ts a r, R ts a r → S ts a r)
    {ts d rest} (h : Block R ts d rest) : Block S ts d rest := by
  cases h with
  | none h => exact .none h
  | some h1 h2 h3 h4 => exact .some h1 (many_mono hR h2) h3 h4

theorem unionMembers_lax {ts d rest} (h : UnionMembers false ts d rest) : UnionMembers true ts d rest := by
  cases h with
  | none h => exact .none h
  | some h1 h2 h3 => exact .some h1 h2 (sepBy_mono (fun _ _ _ h => memberType_lax h) h3)

theorem enumValDefn_lax {ts d rest} (h : EnumValDefn pf false ts d rest) : EnumValDefn pf true ts d rest := by
  cases h with | mk h1 h2 h3 h4 h5 h6 => exact .mk h1 h2 h3 h4 h5 (dirs_lax h6)

theorem typeDefn_lax {desc ts d rest} (h : TypeDefn pf false desc ts d rest) : TypeDefn pf true desc ts d rest := by
  cases h with
  | scalar h1 h2 h3 => exact .scalar h1 h2 (dirs_lax h3)
  | object h1 h2 h3 h4 h5 =>
    exact .object h1 h2 (implements_lax h3) (dirs_lax h4) (block_mono (fun _ _ _ h => fieldDefn_lax h) h5)
  | interface h1 h2 h3 h4 => exact .interface h1 h2 (dirs_lax h3) (block_mono (fun _ _ _ h => fieldDefn_lax h) h4)
  | union h1 h2 h3 h4 => exact .union h1 h2 (dirs_lax h3) (unionMembers_lax h4)
  | enum h1 h2 h3 h4 => exact .enum h1 h2 (dirs_lax h3) (block_mono (fun _ _ _ h => enumValDefn_lax h) h4)
  | input h1 h2 h3 h4 => exact .input h1 h2 (dirs_lax h3) (block_mono (fun _ _ _ h => inputValue_lax h) h4)

theorem defn_lax {ts b rest} (h : Defn pf false ts b rest) : Defn pf true ts b rest := by
  cases h with
  | op h => exact .op (opDefn_lax h)
  | frag h => exact .frag (fragDefn_lax h)
  | schema h => exact .schema (schemaDefn_lax h)
  | schemaDesc h _ _ => cases h
  | type h1 h2 => exact .type h1 (typeDefn_lax h2)
  | directive h1 h2 => exact .directive h1 (dirDefn_lax h2)
  | schemaExt h1 h2 => exact .schemaExt h1 (schemaExtn_lax h2)
  | typeExt h1 h2 _ => exact .typeExt h1 (typeDefn_lax h2) (.inr rfl)

theorem locDefn_lax {ts d rest} (h : LocDefn pf false ts d rest) : LocDefn pf true ts d rest := by
  cases h with | mk h => exact .mk (defn_lax h)

theorem doc_lax {ts ds} (h : Doc pf false ts ds) : Doc pf true ts ds := by
  obtain ⟨e, r, h1, h2, h3⟩ := h
  exact ⟨e, r, h1, many_mono (fun _ _ _ h => locDefn_lax h) h2, h3⟩

end

end GQL
