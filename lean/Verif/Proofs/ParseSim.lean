/-
The grammar looks at kinds and literals of tokens only, except for the locations of definitions.
-/
import Verif.Proofs.ParseLoop

namespace GQL
open Spec

/-- The same kinds and literals. -/
def Sim (ts ts' : Toks) : Prop := ts.map (fun t => (t.kind, t.lit)) = ts'.map (fun t => (t.kind, t.lit))

theorem Sim.symm {ts ts' : Toks} (h : Sim ts ts') : Sim ts' ts := Eq.symm h

theorem tok1_sim {k l} {ts r ts' : Toks} (h : Tok1 k l ts r) (hs : Sim ts ts') : ∃ r', Tok1 k l ts' r' ∧ Sim r r' := by
  obtain ⟨t, rfl, h1, h2⟩ := h
  unfold Sim at hs
  cases ts' with
  | nil => simp at hs
  | cons t' r' =>
    simp only [List.map_cons, List.cons.injEq, Prod.mk.injEq] at hs
    exact ⟨r', ⟨t', rfl, hs.1.1 ▸ h1, hs.1.2 ▸ h2⟩, hs.2⟩

theorem notNext1_sim {k l} {ts ts' : Toks} (h : NotNext1 k l ts) (hs : Sim ts ts') : NotNext1 k l ts' := by
  intro r hr
  obtain ⟨r', h', -⟩ := tok1_sim hr hs.symm
  exact h _ h'

theorem notKind_sim {k} {ts ts' : Toks} (h : NotKind k ts) (hs : Sim ts ts') : NotKind k ts' := by
  intro l r hr
  obtain ⟨r', h', -⟩ := tok1_sim hr hs.symm
  exact h _ _ h'

/-- `R` does not look at positions. -/
def Inv {α : Type} (R : Toks → α → Toks → Prop) : Prop :=
  ∀ {ts a r ts'}, R ts a r → Sim ts ts' → ∃ r', R ts' a r' ∧ Sim r r'

/-- The same with explicit arguments. -/
def Inv' {α : Type} (R : Toks → α → Toks → Prop) : Prop :=
  ∀ ts a r ts', R ts a r → Sim ts ts' → ∃ r', R ts' a r' ∧ Sim r r'

theorem many_sim {α : Type} {R : Toks → α → Toks → Prop} {ts a r ts'} (h : Many R ts a r) (hR : Inv' R) (hs : Sim ts ts') :
    ∃ r', Many R ts' a r' ∧ Sim r r' := by
  induction h generalizing ts' with
  | nil => exact ⟨_, .nil _, hs⟩
  | cons h1 _ ih =>
    obtain ⟨r1, h1', s1⟩ := hR _ _ _ _ h1 hs
    obtain ⟨r2, h2', s2⟩ := ih s1
    exact ⟨r2, .cons h1' h2', s2⟩

theorem sepBy_sim {α : Type} {R : Toks → α → Toks → Prop} {l : Bytes} {ts a r ts'} (h : SepBy R l ts a r) (hR : Inv' R) (hs : Sim ts ts') :
    ∃ r', SepBy R l ts' a r' ∧ Sim r r' := by
  induction h generalizing ts' with
  | one h1 h2 =>
    obtain ⟨r1, h1', s1⟩ := hR _ _ _ _ h1 hs
    exact ⟨r1, .one h1' (notNext1_sim h2 s1), s1⟩
  | cons h1 h2 _ ih =>
    obtain ⟨r1, h1', s1⟩ := hR _ _ _ _ h1 hs
    obtain ⟨r2, h2', s2⟩ := tok1_sim h2 s1
    obtain ⟨r3, h3', s3⟩ := ih s2
    exact ⟨r3, .cons h1' h2' h3', s3⟩

theorem optPu_sim {l} {ts r ts' : Toks} (h : OptPu l ts r) (hs : Sim ts ts') : ∃ r', OptPu l ts' r' ∧ Sim r r' := by
  rcases h with h | ⟨h, rfl⟩
  · obtain ⟨r', h', s⟩ := tok1_sim h hs; exact ⟨r', .inl h', s⟩
  · exact ⟨ts', .inr ⟨notNext1_sim h hs, rfl⟩, hs⟩

theorem bang_sim : Inv Bang := by
  intro ts b r ts' h hs
  rcases h with ⟨e, h⟩ | ⟨e, h, rfl⟩
  · obtain ⟨r', h', s⟩ := tok1_sim h hs; exact ⟨r', .inl ⟨e, h'⟩, s⟩
  · exact ⟨ts', .inr ⟨e, notNext1_sim h hs, rfl⟩, hs⟩

theorem optTok_sim {k} : Inv (OptTok k) := by
  intro ts b r ts' h hs
  rcases h with h | ⟨e, h, rfl⟩
  · obtain ⟨r', h', s⟩ := tok1_sim h hs; exact ⟨r', .inl h', s⟩
  · exact ⟨ts', .inr ⟨e, notKind_sim h hs, rfl⟩, hs⟩

section
variable {pf : Bytes → Option Nat} {lax : Bool}

mutual
theorem typeRef_sim' {ts a r ts'} : TypeRef lax ts a r → Sim ts ts' → ∃ r', TypeRef lax ts' a r' ∧ Sim r r'
  | .named h1 h2, hs => by
    obtain ⟨_, h1', s1⟩ := tok1_sim h1 hs
    obtain ⟨_, h2', s2⟩ := bang_sim h2 s1
    exact ⟨_, .named h1' h2', s2⟩
  | .list h1 h2 h3 h4, hs => by
    obtain ⟨_, h1', s1⟩ := tok1_sim h1 hs
    obtain ⟨_, h2', s2⟩ := typeRef_sim' h2 s1
    obtain ⟨_, h3', s3⟩ := tok1_sim h3 s2
    obtain ⟨_, h4', s4⟩ := bang_sim h4 s3
    exact ⟨_, .list h1' h2' h3' h4', s4⟩
  | .broken h0 h1 h2, hs => by
    obtain ⟨_, h1', s1⟩ := tok1_sim h1 hs
    obtain ⟨_, h2', s2⟩ := typeStuck_sim h2 s1
    exact ⟨_, .broken h0 h1' h2', s2⟩
theorem typeStuck_sim {ts r ts'} : TypeStuck lax ts r → Sim ts ts' → ∃ r', TypeStuck lax ts' r' ∧ Sim r r'
  | .start h1 h2, hs => ⟨_, .start (notKind_sim h1 hs) (notNext1_sim h2 hs), hs⟩
  | .unclosed h1 h2 h3, hs => by
    obtain ⟨_, h1', s1⟩ := tok1_sim h1 hs
    obtain ⟨_, h2', s2⟩ := typeRef_sim' h2 s1
    exact ⟨_, .unclosed h1' h2' (notNext1_sim h3 s2), s2⟩
end

theorem typeRef_sim : Inv (TypeRef lax) := fun h hs => typeRef_sim' h hs

theorem namedType_sim : Inv (NamedType lax) := by
  intro ts a r ts' h hs
  cases h with
  | mk h1 h2 h3 =>
    obtain ⟨_, h1', s1⟩ := tok1_sim h1 hs
    obtain ⟨_, h2', s2⟩ := bang_sim h2 s1
    exact ⟨_, .mk h1' h2' h3, s2⟩

theorem memberType_sim : Inv (MemberType lax) := by
  intro ts a r ts' h hs
  obtain ⟨_, h1', s1⟩ := typeRef_sim h.1 hs
  exact ⟨_, ⟨h1', h.2⟩, s1⟩

mutual
theorem val_sim' {c ts a r ts'} : Val pf lax c ts a r → Sim ts ts' → ∃ r', Val pf lax c ts' a r' ∧ Sim r r'
  | .var h0 h1 h2, hs => by
    obtain ⟨_, h1', s1⟩ := tok1_sim h1 hs
    obtain ⟨_, h2', s2⟩ := tok1_sim h2 s1
    exact ⟨_, .var h0 h1' h2', s2⟩
  | .int h h2 h3, hs => by obtain ⟨_, h', s⟩ := tok1_sim h hs; exact ⟨_, .int h' h2 h3, s⟩
  | .float h h2, hs => by obtain ⟨_, h', s⟩ := tok1_sim h hs; exact ⟨_, .float h' h2, s⟩
  | .str h, hs => by obtain ⟨_, h', s⟩ := tok1_sim h hs; exact ⟨_, .str h', s⟩
  | .tru h, hs => by obtain ⟨_, h', s⟩ := tok1_sim h hs; exact ⟨_, .tru h', s⟩
  | .fls h, hs => by obtain ⟨_, h', s⟩ := tok1_sim h hs; exact ⟨_, .fls h', s⟩
  | .null h, hs => by obtain ⟨_, h', s⟩ := tok1_sim h hs; exact ⟨_, .null h', s⟩
  | .enum h h2 h3 h4, hs => by obtain ⟨_, h', s⟩ := tok1_sim h hs; exact ⟨_, .enum h' h2 h3 h4, s⟩
  | .list h1 h2 h3, hs => by
    obtain ⟨_, h1', s1⟩ := tok1_sim h1 hs
    obtain ⟨_, h2', s2⟩ := vals_sim h2 s1
    obtain ⟨_, h3', s3⟩ := tok1_sim h3 s2
    exact ⟨_, .list h1' h2' h3', s3⟩
  | .obj h1 h2 h3, hs => by
    obtain ⟨_, h1', s1⟩ := tok1_sim h1 hs
    obtain ⟨_, h2', s2⟩ := flds_sim h2 s1
    obtain ⟨_, h3', s3⟩ := tok1_sim h3 s2
    exact ⟨_, .obj h1' h2' h3', s3⟩
theorem vals_sim {c ts a r ts'} : Vals pf lax c ts a r → Sim ts ts' → ∃ r', Vals pf lax c ts' a r' ∧ Sim r r'
  | .nil _, hs => ⟨_, .nil _, hs⟩
  | .cons h1 h2, hs => by
    obtain ⟨_, h1', s1⟩ := val_sim' h1 hs
    obtain ⟨_, h2', s2⟩ := vals_sim h2 s1
    exact ⟨_, .cons h1' h2', s2⟩
theorem flds_sim {c ts a r ts'} : Flds pf lax c ts a r → Sim ts ts' → ∃ r', Flds pf lax c ts' a r' ∧ Sim r r'
  | .nil _, hs => ⟨_, .nil _, hs⟩
  | .cons h1 h2 h3 h4, hs => by
    obtain ⟨_, h1', s1⟩ := tok1_sim h1 hs
    obtain ⟨_, h2', s2⟩ := tok1_sim h2 s1
    obtain ⟨_, h3', s3⟩ := val_sim' h3 s2
    obtain ⟨_, h4', s4⟩ := flds_sim h4 s3
    exact ⟨_, .cons h1' h2' h3' h4', s4⟩
end

theorem val_sim {c} : Inv (Val pf lax c) := fun h hs => val_sim' h hs

theorem default_sim : Inv (Default pf lax) := by
  intro ts a r ts' h hs
  cases h with
  | none h => exact ⟨_, .none (notNext1_sim h hs), hs⟩
  | some h1 h2 =>
    obtain ⟨_, h1', s1⟩ := tok1_sim h1 hs
    obtain ⟨_, h2', s2⟩ := val_sim h2 s1
    exact ⟨_, .some h1' h2', s2⟩

theorem arg_sim {c} : Inv (Arg pf lax c) := by
  intro ts a r ts' h hs
  cases h with
  | mk h1 h2 h3 =>
    obtain ⟨_, h1', s1⟩ := tok1_sim h1 hs
    obtain ⟨_, h2', s2⟩ := tok1_sim h2 s1
    obtain ⟨_, h3', s3⟩ := val_sim h3 s2
    exact ⟨_, .mk h1' h2' h3', s3⟩

theorem args_sim {c} : Inv (Args pf lax c) := by
  intro ts a r ts' h hs
  cases h with
  | none h => exact ⟨_, .none (notNext1_sim h hs), hs⟩
  | some h1 h2 h3 h4 =>
    obtain ⟨_, h1', s1⟩ := tok1_sim h1 hs
    obtain ⟨_, h2', s2⟩ := many_sim h2 (fun _ _ _ _ => arg_sim) s1
    obtain ⟨_, h3', s3⟩ := tok1_sim h3 s2
    exact ⟨_, .some h1' h2' h3' h4, s3⟩

theorem dir_sim {c loc} : Inv (Dir pf lax c loc) := by
  intro ts a r ts' h hs
  cases h with
  | mk h1 h2 h3 =>
    obtain ⟨_, h1', s1⟩ := tok1_sim h1 hs
    obtain ⟨_, h2', s2⟩ := tok1_sim h2 s1
    obtain ⟨_, h3', s3⟩ := args_sim h3 s2
    exact ⟨_, .mk h1' h2' h3', s3⟩

theorem dirs_sim {c loc} : Inv (Dirs pf lax c loc) := by
  intro ts a r ts' h hs
  obtain ⟨_, h1', s1⟩ := many_sim h.1 (fun _ _ _ _ => dir_sim) hs
  exact ⟨_, ⟨h1', notNext1_sim h.2 s1⟩, s1⟩

theorem typeCond_sim : Inv (TypeCond lax) := by
  intro ts a r ts' h hs
  cases h with
  | mk h1 h2 =>
    obtain ⟨_, h1', s1⟩ := tok1_sim h1 hs
    obtain ⟨_, h2', s2⟩ := namedType_sim h2 s1
    exact ⟨_, .mk h1' h2', s2⟩

theorem optCond_sim : Inv (OptCond lax) := by
  intro ts a r ts' h hs
  cases h with
  | none h => exact ⟨_, .none (notNext1_sim h hs), hs⟩
  | some h1 =>
    obtain ⟨_, h1', s1⟩ := typeCond_sim h1 hs
    exact ⟨_, .some h1', s1⟩

theorem fieldName_sim : Inv FieldName := by
  intro ts a r ts' h hs
  cases h with
  | plain h1 h2 =>
    obtain ⟨_, h1', s1⟩ := tok1_sim h1 hs
    exact ⟨_, .plain h1' (notNext1_sim h2 s1), s1⟩
  | alias h1 h2 h3 =>
    obtain ⟨_, h1', s1⟩ := tok1_sim h1 hs
    obtain ⟨_, h2', s2⟩ := tok1_sim h2 s1
    obtain ⟨_, h3', s3⟩ := tok1_sim h3 s2
    exact ⟨_, .alias h1' h2' h3', s3⟩

mutual
theorem sel_sim {ts a r ts'} : Sel pf lax ts a r → Sim ts ts' → ∃ r', Sel pf lax ts' a r' ∧ Sim r r'
  | .leaf h1 h2 h3 h4, hs => by
    obtain ⟨_, h1', s1⟩ := fieldName_sim h1 hs
    obtain ⟨_, h2', s2⟩ := args_sim h2 s1
    obtain ⟨_, h3', s3⟩ := dirs_sim h3 s2
    exact ⟨_, .leaf h1' h2' h3' (notNext1_sim h4 s3), s3⟩
  | .node h1 h2 h3 h4, hs => by
    obtain ⟨_, h1', s1⟩ := fieldName_sim h1 hs
    obtain ⟨_, h2', s2⟩ := args_sim h2 s1
    obtain ⟨_, h3', s3⟩ := dirs_sim h3 s2
    obtain ⟨_, h4', s4⟩ := selSet_sim h4 s3
    exact ⟨_, .node h1' h2' h3' h4', s4⟩
  | .spread h1 h2 h3 h4, hs => by
    obtain ⟨_, h1', s1⟩ := tok1_sim h1 hs
    obtain ⟨_, h2', s2⟩ := tok1_sim h2 s1
    obtain ⟨_, h4', s4⟩ := dirs_sim h4 s2
    exact ⟨_, .spread h1' h2' h3 h4', s4⟩
  | .inline h1 h2 h3 h4, hs => by
    obtain ⟨_, h1', s1⟩ := tok1_sim h1 hs
    obtain ⟨_, h2', s2⟩ := optCond_sim h2 s1
    obtain ⟨_, h3', s3⟩ := dirs_sim h3 s2
    obtain ⟨_, h4', s4⟩ := selSet_sim h4 s3
    exact ⟨_, .inline h1' h2' h3' h4', s4⟩
theorem sels_sim {ts a r ts'} : Sels pf lax ts a r → Sim ts ts' → ∃ r', Sels pf lax ts' a r' ∧ Sim r r'
  | .one h1, hs => by obtain ⟨_, h1', s1⟩ := sel_sim h1 hs; exact ⟨_, .one h1', s1⟩
  | .cons h1 h2, hs => by
    obtain ⟨_, h1', s1⟩ := sel_sim h1 hs
    obtain ⟨_, h2', s2⟩ := sels_sim h2 s1
    exact ⟨_, .cons h1' h2', s2⟩
theorem selSet_sim {ts a r ts'} : SelSet pf lax ts a r → Sim ts ts' → ∃ r', SelSet pf lax ts' a r' ∧ Sim r r'
  | .mk h1 h2 h3, hs => by
    obtain ⟨_, h1', s1⟩ := tok1_sim h1 hs
    obtain ⟨_, h2', s2⟩ := sels_sim h2 s1
    obtain ⟨_, h3', s3⟩ := tok1_sim h3 s2
    exact ⟨_, .mk h1' h2' h3', s3⟩
end

theorem varDefn_sim : Inv (VarDefn pf lax) := by
  intro ts a r ts' h hs
  cases h with
  | mk h1 h2 h3 h4 h5 =>
    obtain ⟨_, h1', s1⟩ := tok1_sim h1 hs
    obtain ⟨_, h2', s2⟩ := tok1_sim h2 s1
    obtain ⟨_, h3', s3⟩ := tok1_sim h3 s2
    obtain ⟨_, h4', s4⟩ := typeRef_sim h4 s3
    obtain ⟨_, h5', s5⟩ := default_sim h5 s4
    exact ⟨_, .mk h1' h2' h3' h4' h5', s5⟩

theorem varDefns_sim : Inv (VarDefns pf lax) := by
  intro ts a r ts' h hs
  cases h with
  | none h => exact ⟨_, .none (notNext1_sim h hs), hs⟩
  | some h1 h2 h3 h4 =>
    obtain ⟨_, h1', s1⟩ := tok1_sim h1 hs
    obtain ⟨_, h2', s2⟩ := many_sim h2 (fun _ _ _ _ => varDefn_sim) s1
    obtain ⟨_, h4', s4⟩ := tok1_sim h4 s2
    exact ⟨_, .some h1' h2' h3 h4', s4⟩

theorem opType_sim : Inv OpType := by
  intro ts a r ts' h hs
  cases h with
  | query h => obtain ⟨_, h', s⟩ := tok1_sim h hs; exact ⟨_, .query h', s⟩
  | mutation h => obtain ⟨_, h', s⟩ := tok1_sim h hs; exact ⟨_, .mutation h', s⟩
  | subscription h => obtain ⟨_, h', s⟩ := tok1_sim h hs; exact ⟨_, .subscription h', s⟩

theorem opDefn_sim : Inv (OpDefn pf lax) := by
  intro ts a r ts' h hs
  cases h with
  | shorthand h => obtain ⟨_, h', s⟩ := selSet_sim h hs; exact ⟨_, .shorthand h', s⟩
  | full h1 h2 h3 h4 h5 =>
    obtain ⟨_, h1', s1⟩ := opType_sim h1 hs
    obtain ⟨_, h2', s2⟩ := optTok_sim h2 s1
    obtain ⟨_, h3', s3⟩ := varDefns_sim h3 s2
    obtain ⟨_, h4', s4⟩ := dirs_sim h4 s3
    obtain ⟨_, h5', s5⟩ := selSet_sim h5 s4
    exact ⟨_, .full h1' h2' h3' h4' h5', s5⟩

theorem fragDefn_sim : Inv (FragDefn pf lax) := by
  intro ts a r ts' h hs
  cases h with
  | mk h1 h2 h3 h4 h5 h6 =>
    obtain ⟨_, h1', s1⟩ := tok1_sim h1 hs
    obtain ⟨_, h2', s2⟩ := tok1_sim h2 s1
    obtain ⟨_, h4', s4⟩ := typeCond_sim h4 s2
    obtain ⟨_, h5', s5⟩ := dirs_sim h5 s4
    obtain ⟨_, h6', s6⟩ := selSet_sim h6 s5
    exact ⟨_, .mk h1' h2' h3 h4' h5' h6', s6⟩

theorem opTypeDefn_sim : Inv (OpTypeDefn lax) := by
  intro ts a r ts' h hs
  cases h with
  | mk h1 h2 h3 =>
    obtain ⟨_, h1', s1⟩ := opType_sim h1 hs
    obtain ⟨_, h2', s2⟩ := tok1_sim h2 s1
    obtain ⟨_, h3', s3⟩ := namedType_sim h3 s2
    exact ⟨_, .mk h1' h2' h3', s3⟩

theorem opTypeDefns_sim : Inv (OpTypeDefns lax) := by
  intro ts a r ts' h hs
  cases h with
  | mk h1 h2 h3 h4 =>
    obtain ⟨_, h1', s1⟩ := tok1_sim h1 hs
    obtain ⟨_, h2', s2⟩ := many_sim h2 (fun _ _ _ _ => opTypeDefn_sim) s1
    obtain ⟨_, h4', s4⟩ := tok1_sim h4 s2
    exact ⟨_, .mk h1' h2' h3 h4', s4⟩

theorem schemaDefn_sim : Inv (SchemaDefn pf lax) := by
  intro ts a r ts' h hs
  cases h with
  | mk h1 h2 h3 =>
    obtain ⟨_, h1', s1⟩ := tok1_sim h1 hs
    obtain ⟨_, h2', s2⟩ := dirs_sim h2 s1
    obtain ⟨_, h3', s3⟩ := opTypeDefns_sim h3 s2
    exact ⟨_, .mk h1' h2' h3', s3⟩

theorem schemaExtn_sim : Inv (SchemaExtn pf lax) := by
  intro ts a r ts' h hs
  cases h with
  | ops h1 h2 h3 =>
    obtain ⟨_, h1', s1⟩ := tok1_sim h1 hs
    obtain ⟨_, h2', s2⟩ := dirs_sim h2 s1
    obtain ⟨_, h3', s3⟩ := opTypeDefns_sim h3 s2
    exact ⟨_, .ops h1' h2' h3', s3⟩
  | dirs h1 h2 h3 h4 =>
    obtain ⟨_, h1', s1⟩ := tok1_sim h1 hs
    obtain ⟨_, h2', s2⟩ := dirs_sim h2 s1
    exact ⟨_, .dirs h1' h2' h3 (notNext1_sim h4 s2), s2⟩

theorem inputValue_sim {loc} : Inv (InputValue pf lax loc) := by
  intro ts a r ts' h hs
  cases h with
  | mk h1 h2 h3 h4 h5 h6 =>
    obtain ⟨_, h1', s1⟩ := optTok_sim h1 hs
    obtain ⟨_, h2', s2⟩ := tok1_sim h2 s1
    obtain ⟨_, h3', s3⟩ := tok1_sim h3 s2
    obtain ⟨_, h4', s4⟩ := typeRef_sim h4 s3
    obtain ⟨_, h5', s5⟩ := default_sim h5 s4
    obtain ⟨_, h6', s6⟩ := dirs_sim h6 s5
    exact ⟨_, .mk h1' h2' h3' h4' h5' h6', s6⟩

theorem argsDef_sim : Inv (ArgsDef pf lax) := by
  intro ts a r ts' h hs
  cases h with
  | none h => exact ⟨_, .none (notNext1_sim h hs), hs⟩
  | some h1 h2 h3 h4 =>
    obtain ⟨_, h1', s1⟩ := tok1_sim h1 hs
    obtain ⟨_, h2', s2⟩ := many_sim h2 (fun _ _ _ _ => inputValue_sim) s1
    obtain ⟨_, h4', s4⟩ := tok1_sim h4 s2
    exact ⟨_, .some h1' h2' h3 h4', s4⟩

theorem locName_sim : Inv LocName := fun h hs => tok1_sim h hs

theorem dirDefn_sim {desc} : Inv (DirDefn pf lax desc) := by
  intro ts a r ts' h hs
  cases h with
  | mk h1 h2 h3 h4 h5 h6 h7 =>
    obtain ⟨_, h1', s1⟩ := tok1_sim h1 hs
    obtain ⟨_, h2', s2⟩ := tok1_sim h2 s1
    obtain ⟨_, h3', s3⟩ := tok1_sim h3 s2
    obtain ⟨_, h4', s4⟩ := argsDef_sim h4 s3
    obtain ⟨_, h5', s5⟩ := tok1_sim h5 s4
    obtain ⟨_, h6', s6⟩ := optPu_sim h6 s5
    obtain ⟨_, h7', s7⟩ := sepBy_sim h7 (fun _ _ _ _ => locName_sim) s6
    exact ⟨_, .mk h1' h2' h3' h4' h5' h6' h7', s7⟩

theorem implements_sim : Inv (Implements lax) := by
  intro ts a r ts' h hs
  cases h with
  | none h => exact ⟨_, .none (notNext1_sim h hs), hs⟩
  | some h1 h2 h3 =>
    obtain ⟨_, h1', s1⟩ := tok1_sim h1 hs
    obtain ⟨_, h2', s2⟩ := optPu_sim h2 s1
    obtain ⟨_, h3', s3⟩ := sepBy_sim h3 (fun _ _ _ _ => memberType_sim) s2
    exact ⟨_, .some h1' h2' h3', s3⟩

theorem unionMembers_sim : Inv (UnionMembers lax) := by
  intro ts a r ts' h hs
  cases h with
  | none h => exact ⟨_, .none (notNext1_sim h hs), hs⟩
  | some h1 h2 h3 =>
    obtain ⟨_, h1', s1⟩ := tok1_sim h1 hs
    obtain ⟨_, h2', s2⟩ := optPu_sim h2 s1
    obtain ⟨_, h3', s3⟩ := sepBy_sim h3 (fun _ _ _ _ => memberType_sim) s2
    exact ⟨_, .some h1' h2' h3', s3⟩

theorem fieldDefn_sim : Inv (FieldDefn pf lax) := by
  intro ts a r ts' h hs
  cases h with
  | mk h1 h2 h3 h4 h5 h6 =>
    obtain ⟨_, h1', s1⟩ := optTok_sim h1 hs
    obtain ⟨_, h2', s2⟩ := tok1_sim h2 s1
    obtain ⟨_, h3', s3⟩ := argsDef_sim h3 s2
    obtain ⟨_, h4', s4⟩ := tok1_sim h4 s3
    obtain ⟨_, h5', s5⟩ := typeRef_sim h5 s4
    obtain ⟨_, h6', s6⟩ := dirs_sim h6 s5
    exact ⟨_, .mk h1' h2' h3' h4' h5' h6', s6⟩

theorem block_sim {α : Type} {R : Toks → α → Toks → Prop} {ts a r ts'} (h : Block R ts a r) (hR : Inv' R) (hs : Sim ts ts') :
    ∃ r', Block R ts' a r' ∧ Sim r r' := by
  cases h with
  | none h => exact ⟨_, .none (notNext1_sim h hs), hs⟩
  | some h1 h2 h3 h4 =>
    obtain ⟨_, h1', s1⟩ := tok1_sim h1 hs
    obtain ⟨_, h2', s2⟩ := many_sim h2 hR s1
    obtain ⟨_, h4', s4⟩ := tok1_sim h4 s2
    exact ⟨_, .some h1' h2' h3 h4', s4⟩

theorem enumValDefn_sim : Inv (EnumValDefn pf lax) := by
  intro ts a r ts' h hs
  cases h with
  | mk h1 h2 h3 h4 h5 h6 =>
    obtain ⟨_, h1', s1⟩ := optTok_sim h1 hs
    obtain ⟨_, h2', s2⟩ := tok1_sim h2 s1
    obtain ⟨_, h6', s6⟩ := dirs_sim h6 s2
    exact ⟨_, .mk h1' h2' h3 h4 h5 h6', s6⟩

theorem typeDefn_sim {desc} : Inv (TypeDefn pf lax desc) := by
  intro ts a r ts' h hs
  cases h with
  | scalar h1 h2 h3 =>
    obtain ⟨_, h1', s1⟩ := tok1_sim h1 hs
    obtain ⟨_, h2', s2⟩ := tok1_sim h2 s1
    obtain ⟨_, h3', s3⟩ := dirs_sim h3 s2
    exact ⟨_, .scalar h1' h2' h3', s3⟩
  | object h1 h2 h3 h4 h5 =>
    obtain ⟨_, h1', s1⟩ := tok1_sim h1 hs
    obtain ⟨_, h2', s2⟩ := tok1_sim h2 s1
    obtain ⟨_, h3', s3⟩ := implements_sim h3 s2
    obtain ⟨_, h4', s4⟩ := dirs_sim h4 s3
    obtain ⟨_, h5', s5⟩ := block_sim h5 (fun _ _ _ _ => fieldDefn_sim) s4
    exact ⟨_, .object h1' h2' h3' h4' h5', s5⟩
  | interface h1 h2 h3 h4 =>
    obtain ⟨_, h1', s1⟩ := tok1_sim h1 hs
    obtain ⟨_, h2', s2⟩ := tok1_sim h2 s1
    obtain ⟨_, h3', s3⟩ := dirs_sim h3 s2
    obtain ⟨_, h4', s4⟩ := block_sim h4 (fun _ _ _ _ => fieldDefn_sim) s3
    exact ⟨_, .interface h1' h2' h3' h4', s4⟩
  | union h1 h2 h3 h4 =>
    obtain ⟨_, h1', s1⟩ := tok1_sim h1 hs
    obtain ⟨_, h2', s2⟩ := tok1_sim h2 s1
    obtain ⟨_, h3', s3⟩ := dirs_sim h3 s2
    obtain ⟨_, h4', s4⟩ := unionMembers_sim h4 s3
    exact ⟨_, .union h1' h2' h3' h4', s4⟩
  | enum h1 h2 h3 h4 =>
    obtain ⟨_, h1', s1⟩ := tok1_sim h1 hs
    obtain ⟨_, h2', s2⟩ := tok1_sim h2 s1
    obtain ⟨_, h3', s3⟩ := dirs_sim h3 s2
    obtain ⟨_, h4', s4⟩ := block_sim h4 (fun _ _ _ _ => enumValDefn_sim) s3
    exact ⟨_, .enum h1' h2' h3' h4', s4⟩
  | input h1 h2 h3 h4 =>
    obtain ⟨_, h1', s1⟩ := tok1_sim h1 hs
    obtain ⟨_, h2', s2⟩ := tok1_sim h2 s1
    obtain ⟨_, h3', s3⟩ := dirs_sim h3 s2
    obtain ⟨_, h4', s4⟩ := block_sim h4 (fun _ _ _ _ => inputValue_sim) s3
    exact ⟨_, .input h1' h2' h3' h4', s4⟩

theorem defn_sim : Inv (Defn pf lax) := by
  intro ts a r ts' h hs
  cases h with
  | op h => obtain ⟨_, h', s⟩ := opDefn_sim h hs; exact ⟨_, .op h', s⟩
  | frag h => obtain ⟨_, h', s⟩ := fragDefn_sim h hs; exact ⟨_, .frag h', s⟩
  | schema h => obtain ⟨_, h', s⟩ := schemaDefn_sim h hs; exact ⟨_, .schema h', s⟩
  | schemaDesc h0 h1 h2 =>
    obtain ⟨_, h1', s1⟩ := tok1_sim h1 hs
    obtain ⟨_, h2', s2⟩ := schemaDefn_sim h2 s1
    exact ⟨_, .schemaDesc h0 h1' h2', s2⟩
  | type h1 h2 =>
    obtain ⟨_, h1', s1⟩ := optTok_sim h1 hs
    obtain ⟨_, h2', s2⟩ := typeDefn_sim h2 s1
    exact ⟨_, .type h1' h2', s2⟩
  | directive h1 h2 =>
    obtain ⟨_, h1', s1⟩ := optTok_sim h1 hs
    obtain ⟨_, h2', s2⟩ := dirDefn_sim h2 s1
    exact ⟨_, .directive h1' h2', s2⟩
  | schemaExt h1 h2 =>
    obtain ⟨_, h1', s1⟩ := tok1_sim h1 hs
    obtain ⟨_, h2', s2⟩ := schemaExtn_sim h2 s1
    exact ⟨_, .schemaExt h1' h2', s2⟩
  | typeExt h1 h2 h3 =>
    obtain ⟨_, h1', s1⟩ := tok1_sim h1 hs
    obtain ⟨_, h2', s2⟩ := typeDefn_sim h2 s1
    exact ⟨_, .typeExt h1' h2' h3, s2⟩

/-- Documents: the same bodies. -/
theorem defs_sim {ts ts' : Toks} {ds : List Definition} {rest : Toks} (h : Many (LocDefn pf lax) ts ds rest)
    (hs : Sim ts ts') : ∃ ds' rest', Many (LocDefn pf lax) ts' ds' rest' ∧ Sim rest rest' ∧ ds'.map (·.body) = ds.map (·.body) := by
  induction h generalizing ts' with
  | nil => exact ⟨[], ts', .nil _, hs, rfl⟩
  | cons h1 _ ih =>
    cases h1 with
    | mk h1 =>
      obtain ⟨r', h1', s1⟩ := defn_sim h1 hs
      obtain ⟨ds', r2, h2', s2, e⟩ := ih s1
      cases ts' with
      | nil => simp [Sim] at hs
      | cons t' us' => exact ⟨_, r2, .cons (.mk h1') h2', s2, by simp [e]⟩

theorem doc_sim {ts ts' : Toks} {ds : List Definition} (h : Doc pf lax ts ds) (hs : Sim ts ts') :
    ∃ ds', Doc pf lax ts' ds' ∧ ds'.map (·.body) = ds.map (·.body) := by
  obtain ⟨e, r, h1, h2, h3⟩ := h
  obtain ⟨ds', r', h2', s, eb⟩ := defs_sim h2 hs
  cases r' with
  | nil => simp [Sim] at s
  | cons e' r' =>
    simp only [Sim, List.map_cons, List.cons.injEq, Prod.mk.injEq] at s
    exact ⟨ds', ⟨e', r', by intro hn; subst hn; exact h1 (List.map_eq_nil_iff.1 eb.symm), h2', s.1.1 ▸ h3⟩, eb⟩

end

end GQL
