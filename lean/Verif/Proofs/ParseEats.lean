/-
What a derivation consumes: tokens that are neither EOF nor Illegal.
-/
import Verif.Proofs.ParseLoop

namespace GQL
open Spec

/-- `rest` is what follows in `ts` some tokens that are neither EOF nor Illegal. -/
def Eats (ts rest : Toks) : Prop :=
  ∃ pre, ts = pre ++ rest ∧ ∀ t ∈ pre, t.kind ≠ .eof ∧ t.kind ≠ .illegal

/-- The same with at least one token. -/
def Eats1 (ts rest : Toks) : Prop := Eats ts rest ∧ rest.length < ts.length

theorem Eats.refl (ts : Toks) : Eats ts ts := ⟨[], rfl, by simp⟩

theorem Eats.trans {a b c : Toks} (h : Eats a b) (h2 : Eats b c) : Eats a c := by
  obtain ⟨p, rfl, hp⟩ := h
  obtain ⟨q, rfl, hq⟩ := h2
  refine ⟨p ++ q, by simp, ?_⟩
  intro t ht
  rcases List.mem_append.1 ht with h | h
  · exact hp t h
  · exact hq t h

theorem Eats.length {a b : Toks} (h : Eats a b) : b.length ≤ a.length := by
  obtain ⟨p, rfl, -⟩ := h; simp

theorem Eats.mem {a b : Toks} (h : Eats a b) {t : Token} (ht : t ∈ b) : t ∈ a := by
  obtain ⟨p, rfl, -⟩ := h; simp [ht]

theorem Eats1.trans {a b c : Toks} (h : Eats1 a b) (h2 : Eats b c) : Eats1 a c :=
  ⟨h.1.trans h2, Nat.lt_of_le_of_lt h2.length h.2⟩

theorem Eats.trans1 {a b c : Toks} (h : Eats a b) (h2 : Eats1 b c) : Eats1 a c :=
  ⟨h.trans h2.1, Nat.lt_of_lt_of_le h2.2 h.length⟩

theorem Eats1.trans1 {a b c : Toks} (h : Eats1 a b) (h2 : Eats1 b c) : Eats1 a c := h.trans h2.1

theorem Eats1.eats {a b : Toks} (h : Eats1 a b) : Eats a b := h.1

theorem eats_cons {t : Token} {ts : Toks} (h : t.kind ≠ .eof) (h2 : t.kind ≠ .illegal) : Eats1 (t :: ts) ts :=
  ⟨⟨[t], rfl, by simp [h, h2]⟩, by simp⟩

theorem tok1_eats {k : TokenKind} {l : Bytes} {ts rest : Toks} (h : Tok1 k l ts rest)
    (hk : k ≠ .eof := by decide) (hk2 : k ≠ .illegal := by decide) : Eats1 ts rest := by
  obtain ⟨t, rfl, h1, -⟩ := h
  exact eats_cons (h1 ▸ hk) (h1 ▸ hk2)

theorem many_eats {α : Type} {R : Toks → α → Toks → Prop} (h : ∀ ts a r, R ts a r → Eats ts r)
    {ts rest : Toks} {as : List α} (hm : Many R ts as rest) : Eats ts rest := by
  induction hm with
  | nil => exact .refl _
  | cons h1 _ ih => exact (h _ _ _ h1).trans ih

theorem sepBy_eats {α : Type} {R : Toks → α → Toks → Prop} (h : ∀ ts a r, R ts a r → Eats1 ts r) {l : Bytes}
    {ts rest : Toks} {as : List α} (hm : SepBy R l ts as rest) : Eats1 ts rest := by
  induction hm with
  | one h1 _ => exact h _ _ _ h1
  | cons h1 h2 _ ih => exact (h _ _ _ h1).trans ((tok1_eats h2).trans1 ih).1

theorem optPu_eats {l : Bytes} {ts rest : Toks} (h : OptPu l ts rest) : Eats ts rest := by
  rcases h with h | ⟨-, rfl⟩
  · exact (tok1_eats h).1
  · exact .refl _

theorem optTok_eats {k : TokenKind} {l : Bytes} {ts rest : Toks} (h : OptTok k ts l rest)
    (hk : k ≠ .eof := by decide) (hk2 : k ≠ .illegal := by decide) : Eats ts rest := by
  rcases h with h | ⟨-, -, rfl⟩
  · exact (tok1_eats h hk hk2).1
  · exact .refl _

theorem bang_eats {b : Bool} {ts rest : Toks} (h : Bang ts b rest) : Eats ts rest := by
  rcases h with ⟨-, h⟩ | ⟨-, -, rfl⟩
  · exact (tok1_eats h).1
  · exact .refl _

section
variable {pf : Bytes → Option Nat} {lax : Bool}

mutual
theorem typeRef_eats {ts t rest} : TypeRef lax ts t rest → Eats1 ts rest
  | .named h1 h2 => (tok1_eats h1).trans (bang_eats h2)
  | .list h1 h2 h3 h4 => (tok1_eats h1).trans ((typeRef_eats h2).1.trans ((tok1_eats h3).1.trans (bang_eats h4)))
  | .broken _ h1 h2 => (tok1_eats h1).trans (typeStuck_eats h2)
theorem typeStuck_eats {ts rest} : TypeStuck lax ts rest → Eats ts rest
  | .start _ _ => .refl _
  | .unclosed h1 h2 _ => (tok1_eats h1).1.trans (typeRef_eats h2).1
end

theorem namedType_eats {ts t rest} (h : NamedType lax ts t rest) : Eats1 ts rest := by
  cases h with | mk h1 h2 _ => exact (tok1_eats h1).trans (bang_eats h2)

theorem memberType_eats {ts t rest} (h : MemberType lax ts t rest) : Eats1 ts rest := typeRef_eats h.1

mutual
theorem val_eats {c ts v rest} : Val pf lax c ts v rest → Eats1 ts rest
  | .var _ h1 h2 => (tok1_eats h1).trans (tok1_eats h2).1
  | .int h _ _ => tok1_eats h
  | .float h _ => tok1_eats h
  | .str h => tok1_eats h
  | .tru h => tok1_eats h
  | .fls h => tok1_eats h
  | .null h => tok1_eats h
  | .enum h _ _ _ => tok1_eats h
  | .list h1 h2 h3 => (tok1_eats h1).trans ((vals_eats h2).trans (tok1_eats h3).1)
  | .obj h1 h2 h3 => (tok1_eats h1).trans ((flds_eats h2).trans (tok1_eats h3).1)
theorem vals_eats {c ts vs rest} : Vals pf lax c ts vs rest → Eats ts rest
  | .nil _ => .refl _
  | .cons h1 h2 => (val_eats h1).1.trans (vals_eats h2)
theorem flds_eats {c ts fs rest} : Flds pf lax c ts fs rest → Eats ts rest
  | .nil _ => .refl _
  | .cons h1 h2 h3 h4 => (tok1_eats h1).1.trans ((tok1_eats h2).1.trans ((val_eats h3).1.trans (flds_eats h4)))
end

theorem default_eats {ts d rest} (h : Default pf lax ts d rest) : Eats ts rest := by
  cases h with
  | none => exact .refl _
  | some h1 h2 => exact (tok1_eats h1).1.trans (val_eats h2).1

theorem arg_eats {c ts d rest} (h : Arg pf lax c ts d rest) : Eats1 ts rest := by
  cases h with
  | mk h1 h2 h3 => exact (tok1_eats h1).trans ((tok1_eats h2).1.trans (val_eats h3).1)

theorem args_eats {c ts d rest} (h : Args pf lax c ts d rest) : Eats ts rest := by
  cases h with
  | none => exact .refl _
  | some h1 h2 h3 =>
    exact (tok1_eats h1).1.trans ((many_eats (fun _ _ _ h => (arg_eats h).1) h2).trans (tok1_eats h3).1)

theorem dir_eats {c loc ts d rest} (h : Dir pf lax c loc ts d rest) : Eats1 ts rest := by
  cases h with
  | mk h1 h2 h3 => exact (tok1_eats h1).trans ((tok1_eats h2).1.trans (args_eats h3))

theorem dirs_eats {c loc ts d rest} (h : Dirs pf lax c loc ts d rest) : Eats ts rest :=
  many_eats (fun _ _ _ h => (dir_eats h).1) h.1

theorem typeCond_eats {ts t rest} (h : TypeCond lax ts t rest) : Eats1 ts rest := by
  cases h with | mk h1 h2 => exact (tok1_eats h1).trans (namedType_eats h2).1

theorem optCond_eats {ts t rest} (h : OptCond lax ts t rest) : Eats ts rest := by
  cases h with
  | none => exact .refl _
  | some h => exact (typeCond_eats h).1

theorem fieldName_eats {ts t rest} (h : FieldName ts t rest) : Eats1 ts rest := by
  cases h with
  | plain h _ => exact tok1_eats h
  | alias h1 h2 h3 => exact (tok1_eats h1).trans ((tok1_eats h2).1.trans (tok1_eats h3).1)

mutual
theorem sel_eats {ts s rest} : Sel pf lax ts s rest → Eats1 ts rest
  | .leaf h1 h2 h3 _ => (fieldName_eats h1).trans ((args_eats h2).trans (dirs_eats h3))
  | .node h1 h2 h3 h4 => (fieldName_eats h1).trans ((args_eats h2).trans ((dirs_eats h3).trans (selSet_eats h4).1))
  | .spread h1 h2 _ h3 => (tok1_eats h1).trans ((tok1_eats h2).1.trans (dirs_eats h3))
  | .inline h1 h2 h3 h4 => (tok1_eats h1).trans ((optCond_eats h2).trans ((dirs_eats h3).trans (selSet_eats h4).1))
theorem sels_eats {ts s rest} : Sels pf lax ts s rest → Eats1 ts rest
  | .one h => sel_eats h
  | .cons h1 h2 => (sel_eats h1).trans (sels_eats h2).1
theorem selSet_eats {ts s rest} : SelSet pf lax ts s rest → Eats1 ts rest
  | .mk h1 h2 h3 => (tok1_eats h1).trans ((sels_eats h2).1.trans (tok1_eats h3).1)
end

theorem varDefn_eats {ts d rest} (h : VarDefn pf lax ts d rest) : Eats1 ts rest := by
  cases h with
  | mk h1 h2 h3 h4 h5 =>
    exact (tok1_eats h1).trans ((tok1_eats h2).1.trans ((tok1_eats h3).1.trans ((typeRef_eats h4).1.trans (default_eats h5))))

theorem varDefns_eats {ts d rest} (h : VarDefns pf lax ts d rest) : Eats ts rest := by
  cases h with
  | none => exact .refl _
  | some h1 h2 _ h3 =>
    exact (tok1_eats h1).1.trans ((many_eats (fun _ _ _ h => (varDefn_eats h).1) h2).trans (tok1_eats h3).1)

theorem opType_eats {ts k rest} (h : OpType ts k rest) : Eats1 ts rest := by
  cases h with
  | query h => exact tok1_eats h
  | mutation h => exact tok1_eats h
  | subscription h => exact tok1_eats h

theorem opDefn_eats {ts d rest} (h : OpDefn pf lax ts d rest) : Eats1 ts rest := by
  cases h with
  | shorthand h => exact selSet_eats h
  | full h1 h2 h3 h4 h5 =>
    exact (opType_eats h1).trans ((optTok_eats h2).trans ((varDefns_eats h3).trans ((dirs_eats h4).trans (selSet_eats h5).1)))

theorem fragDefn_eats {ts d rest} (h : FragDefn pf lax ts d rest) : Eats1 ts rest := by
  cases h with
  | mk h1 h2 _ h3 h4 h5 =>
    exact (tok1_eats h1).trans ((tok1_eats h2).1.trans ((typeCond_eats h3).1.trans ((dirs_eats h4).trans (selSet_eats h5).1)))

theorem opTypeDefn_eats {ts d rest} (h : OpTypeDefn lax ts d rest) : Eats1 ts rest := by
  cases h with
  | mk h1 h2 h3 => exact (opType_eats h1).trans ((tok1_eats h2).1.trans (namedType_eats h3).1)

theorem opTypeDefns_eats {ts d rest} (h : OpTypeDefns lax ts d rest) : Eats1 ts rest := by
  cases h with
  | mk h1 h2 _ h3 =>
    exact (tok1_eats h1).trans ((many_eats (fun _ _ _ h => (opTypeDefn_eats h).1) h2).trans (tok1_eats h3).1)

theorem schemaDefn_eats {ts d rest} (h : SchemaDefn pf lax ts d rest) : Eats1 ts rest := by
  cases h with
  | mk h1 h2 h3 => exact (tok1_eats h1).trans ((dirs_eats h2).trans (opTypeDefns_eats h3).1)

theorem schemaExtn_eats {ts d rest} (h : SchemaExtn pf lax ts d rest) : Eats1 ts rest := by
  cases h with
  | ops h1 h2 h3 => exact (tok1_eats h1).trans ((dirs_eats h2).trans (opTypeDefns_eats h3).1)
  | dirs h1 h2 _ _ => exact (tok1_eats h1).trans (dirs_eats h2)

theorem inputValue_eats {loc ts d rest} (h : InputValue pf lax loc ts d rest) : Eats1 ts rest := by
  cases h with
  | mk h1 h2 h3 h4 h5 h6 =>
    exact (optTok_eats h1).trans1 ((tok1_eats h2).trans ((tok1_eats h3).1.trans ((typeRef_eats h4).1.trans
      ((default_eats h5).trans (dirs_eats h6)))))

theorem argsDef_eats {ts d rest} (h : ArgsDef pf lax ts d rest) : Eats ts rest := by
  cases h with
  | none => exact .refl _
  | some h1 h2 _ h3 =>
    exact (tok1_eats h1).1.trans ((many_eats (fun _ _ _ h => (inputValue_eats h).1) h2).trans (tok1_eats h3).1)

theorem dirDefn_eats {desc ts d rest} (h : DirDefn pf lax desc ts d rest) : Eats1 ts rest := by
  cases h with
  | mk h1 h2 h3 h4 h5 h6 h7 =>
    exact (tok1_eats h1).trans ((tok1_eats h2).1.trans ((tok1_eats h3).1.trans ((argsDef_eats h4).trans
      ((tok1_eats h5).1.trans ((optPu_eats h6).trans (sepBy_eats (fun _ _ _ h => tok1_eats h) h7).1)))))

theorem implements_eats {ts d rest} (h : Implements lax ts d rest) : Eats ts rest := by
  cases h with
  | none => exact .refl _
  | some h1 h2 h3 =>
    exact (tok1_eats h1).1.trans ((optPu_eats h2).trans (sepBy_eats (fun _ _ _ h => memberType_eats h) h3).1)

theorem fieldDefn_eats {ts d rest} (h : FieldDefn pf lax ts d rest) : Eats1 ts rest := by
  cases h with
  | mk h1 h2 h3 h4 h5 h6 =>
    exact (optTok_eats h1).trans1 ((tok1_eats h2).trans ((argsDef_eats h3).trans ((tok1_eats h4).1.trans
      ((typeRef_eats h5).1.trans (dirs_eats h6)))))

theorem block_eats {α : Type} {R : Toks → α → Toks → Prop} (hR : ∀ ts a r, R ts a r → Eats1 ts r)
    {ts d rest} (h : Block R ts d rest) : Eats ts rest := by
  cases h with
  | none => exact .refl _
  | some h1 h2 _ h3 =>
    exact (tok1_eats h1).1.trans ((many_eats (fun _ _ _ h => (hR _ _ _ h).1) h2).trans (tok1_eats h3).1)

theorem unionMembers_eats {ts d rest} (h : UnionMembers lax ts d rest) : Eats ts rest := by
  cases h with
  | none => exact .refl _
  | some h1 h2 h3 =>
    exact (tok1_eats h1).1.trans ((optPu_eats h2).trans (sepBy_eats (fun _ _ _ h => memberType_eats h) h3).1)

theorem enumValDefn_eats {ts d rest} (h : EnumValDefn pf lax ts d rest) : Eats1 ts rest := by
  cases h with
  | mk h1 h2 _ _ _ h3 => exact (optTok_eats h1).trans1 ((tok1_eats h2).trans (dirs_eats h3))

theorem typeDefn_eats {desc ts d rest} (h : TypeDefn pf lax desc ts d rest) : Eats1 ts rest := by
  cases h with
  | scalar h1 h2 h3 => exact (tok1_eats h1).trans ((tok1_eats h2).1.trans (dirs_eats h3))
  | object h1 h2 h3 h4 h5 =>
    exact (tok1_eats h1).trans ((tok1_eats h2).1.trans ((implements_eats h3).trans ((dirs_eats h4).trans
      (block_eats (fun _ _ _ h => fieldDefn_eats h) h5))))
  | interface h1 h2 h3 h4 =>
    exact (tok1_eats h1).trans ((tok1_eats h2).1.trans ((dirs_eats h3).trans
      (block_eats (fun _ _ _ h => fieldDefn_eats h) h4)))
  | union h1 h2 h3 h4 =>
    exact (tok1_eats h1).trans ((tok1_eats h2).1.trans ((dirs_eats h3).trans (unionMembers_eats h4)))
  | enum h1 h2 h3 h4 =>
    exact (tok1_eats h1).trans ((tok1_eats h2).1.trans ((dirs_eats h3).trans
      (block_eats (fun _ _ _ h => enumValDefn_eats h) h4)))
  | input h1 h2 h3 h4 =>
    exact (tok1_eats h1).trans ((tok1_eats h2).1.trans ((dirs_eats h3).trans
      (block_eats (fun _ _ _ h => inputValue_eats h) h4)))

theorem defn_eats {ts b rest} (h : Defn pf lax ts b rest) : Eats1 ts rest := by
  cases h with
  | op h => exact opDefn_eats h
  | frag h => exact fragDefn_eats h
  | schema h => exact schemaDefn_eats h
  | schemaDesc _ h1 h2 => exact (tok1_eats h1).trans1 (schemaDefn_eats h2)
  | type h1 h2 => exact (optTok_eats h1).trans1 (typeDefn_eats h2)
  | directive h1 h2 => exact (optTok_eats h1).trans1 (dirDefn_eats h2)
  | schemaExt h1 h2 => exact (tok1_eats h1).trans1 (schemaExtn_eats h2)
  | typeExt h1 h2 _ => exact (tok1_eats h1).trans1 (typeDefn_eats h2)

theorem locDefn_eats {ts d rest} (h : LocDefn pf lax ts d rest) : Eats1 ts rest := by
  cases h with | mk h => exact defn_eats h

end

end GQL
