/-
A derivation that ends at the end of the input still is one when more input follows that begins like a definition.
-/
import Verif.Proofs.ParseSim

namespace GQL
open Spec

/-- The tokens begin like a definition: with a name (a keyword, which is not `implements`), a string, or `{`. -/
structure Begins (b : Toks) : Prop where
  punct : ∀ l r, Pu l b r → l = b!"{"
  noImpl : NotNext1 .name b!"implements" b

/-- A type definition with the braces it may have. -/
def Spec.TypeClosed (t : TypeDef) : Prop := match t.kind with
  | .object | .interface => t.fields ≠ []
  | .enum => t.values ≠ []
  | .inputObject => t.inputs ≠ []
  | _ => True

/-- A definition that ends with braces, or that never has any. -/
def Spec.Closed : Body → Prop
  | .type t | .typeExt t => TypeClosed t
  | .schemaExt s => s.ops ≠ []
  | _ => True

/-- `ts'` is `ts` with `b` in the place of its last token, which is the end of the input.  If `b` begins with a name then the token before is not `[`. -/
def Ext (b : Toks) (e : Token) (ts ts' : Toks) : Prop := e.kind = .eof ∧ Begins b ∧
  ∃ pre, ts = pre ++ [e] ∧ ts' = pre ++ b ∧ (NotKind .name b ∨ ∀ x ∈ pre.getLast?, ¬ (x.kind = .punctuator ∧ x.lit = b!"["))

section
variable {b : Toks} {e : Token}

theorem tok1_ext {k l} {ts r ts' : Toks} (h : Tok1 k l ts r) (hs : Ext b e ts ts') (hk : k ≠ .eof := by decide) : ∃ r', Tok1 k l ts' r' ∧ Ext b e r r' := by
  obtain ⟨t, rfl, h1, h2⟩ := h
  obtain ⟨he, hb, pre, e1, rfl, hl⟩ := hs
  cases pre with
  | nil =>
    simp only [List.nil_append, List.cons.injEq] at e1
    exact absurd (h1.symm.trans (e1.1 ▸ he)) hk
  | cons t' pre =>
    simp only [List.cons_append, List.cons.injEq] at e1
    obtain ⟨rfl, rfl⟩ := e1
    refine ⟨pre ++ b, ⟨t, rfl, h1, h2⟩, he, hb, pre, rfl, rfl, hl.imp_right fun hl x hx => ?_⟩
    cases pre with
    | nil => simp at hx
    | cons y pre => exact hl x (by simpa [List.getLast?_cons_cons] using hx)

/-- The end is not here. -/
theorem tok1_more {k l} {ts r : Toks} (h : Tok1 k l ts r) (he : e.kind = .eof) (hk : k ≠ .eof := by decide) : ts ≠ [e] := by
  rintro rfl
  obtain ⟨t, e1, h1, -⟩ := h
  simp only [List.cons.injEq] at e1
  exact hk (h1.symm.trans (e1.1 ▸ he))

theorem ext_head {ts ts' : Toks} (hs : Ext b e ts ts') (hm : ts ≠ [e]) {k l r} (h : Tok1 k l ts' r) : ∃ r', Tok1 k l ts r' := by
  obtain ⟨he, hb, pre, rfl, rfl, hl⟩ := hs
  cases pre with
  | nil => exact absurd rfl hm
  | cons t pre =>
    obtain ⟨t', e1, h1, h2⟩ := h
    simp only [List.cons_append, List.cons.injEq] at e1
    exact ⟨pre ++ [e], t, rfl, e1.1 ▸ h1, e1.1 ▸ h2⟩

theorem notNext1_more {k l} {ts ts' : Toks} (h : NotNext1 k l ts) (hs : Ext b e ts ts') (hm : ts ≠ [e]) : NotNext1 k l ts' := by
  intro r hr
  obtain ⟨r', h'⟩ := ext_head hs hm hr
  exact h _ h'

theorem notKind_more {k} {ts ts' : Toks} (h : NotKind k ts) (hs : Ext b e ts ts') (hm : ts ≠ [e]) : NotKind k ts' := by
  intro l r hr
  obtain ⟨r', h'⟩ := ext_head hs hm hr
  exact h _ _ h'

theorem ext_end {ts' : Toks} (hs : Ext b e [e] ts') : ts' = b := by
  obtain ⟨he, hb, pre, e1, rfl, hl⟩ := hs
  cases pre with
  | nil => rfl
  | cons t pre => simp at e1

theorem notNext1_ext {l} {ts ts' : Toks} (h : NotNext1 .punctuator l ts) (hs : Ext b e ts ts') (hl : l ≠ b!"{" := by decide) : NotNext1 .punctuator l ts' := by
  by_cases hm : ts = [e]
  · subst hm
    have := ext_end hs; subst this
    intro r hr
    exact hl (hs.2.1.punct _ _ hr)
  · exact notNext1_more h hs hm

/-- `R` does not care what follows the input. -/
def InvE (b : Toks) (e : Token) {α : Type} (R : Toks → α → Toks → Prop) : Prop :=
  ∀ {ts a r ts'}, R ts a r → Ext b e ts ts' → ∃ r', R ts' a r' ∧ Ext b e r r'

/-- The same with explicit arguments. -/
def InvE' (b : Toks) (e : Token) {α : Type} (R : Toks → α → Toks → Prop) : Prop :=
  ∀ ts a r ts', R ts a r → Ext b e ts ts' → ∃ r', R ts' a r' ∧ Ext b e r r'

/-- The same for what is not the last thing of the input. -/
def InvM (b : Toks) (e : Token) {α : Type} (R : Toks → α → Toks → Prop) : Prop :=
  ∀ {ts a r ts'}, R ts a r → r ≠ [e] → Ext b e ts ts' → ∃ r', R ts' a r' ∧ Ext b e r r'

theorem many_ext {α : Type} {R : Toks → α → Toks → Prop} {ts a r ts'} (h : Many R ts a r) (hR : InvE' b e R) (hs : Ext b e ts ts') :
    ∃ r', Many R ts' a r' ∧ Ext b e r r' := by
  induction h generalizing ts' with
  | nil => exact ⟨_, .nil _, hs⟩
  | cons h1 _ ih =>
    obtain ⟨r1, h1', s1⟩ := hR _ _ _ _ h1 hs
    obtain ⟨r2, h2', s2⟩ := ih s1
    exact ⟨r2, .cons h1' h2', s2⟩

theorem sepBy_ext {α : Type} {R : Toks → α → Toks → Prop} {l : Bytes} {ts a r ts'} (h : SepBy R l ts a r) (hR : InvE' b e R) (hs : Ext b e ts ts') (hl : l ≠ b!"{" := by decide) :
    ∃ r', SepBy R l ts' a r' ∧ Ext b e r r' := by
  induction h generalizing ts' with
  | one h1 h2 =>
    obtain ⟨r1, h1', s1⟩ := hR _ _ _ _ h1 hs
    exact ⟨r1, .one h1' (notNext1_ext h2 s1 hl), s1⟩
  | cons h1 h2 _ ih =>
    obtain ⟨r1, h1', s1⟩ := hR _ _ _ _ h1 hs
    obtain ⟨r2, h2', s2⟩ := tok1_ext h2 s1
    obtain ⟨r3, h3', s3⟩ := ih s2
    exact ⟨r3, .cons h1' h2' h3', s3⟩

theorem optPu_ext {l} {ts r ts' : Toks} (h : OptPu l ts r) (hs : Ext b e ts ts') (hl : l ≠ b!"{" := by decide) : ∃ r', OptPu l ts' r' ∧ Ext b e r r' := by
  rcases h with h | ⟨h, rfl⟩
  · obtain ⟨r', h', s⟩ := tok1_ext h hs; exact ⟨r', .inl h', s⟩
  · exact ⟨ts', .inr ⟨notNext1_ext h hs hl, rfl⟩, hs⟩

theorem bang_ext : InvE b e Bang := by
  intro ts b r ts' h hs
  rcases h with ⟨e, h⟩ | ⟨e, h, rfl⟩
  · obtain ⟨r', h', s⟩ := tok1_ext h hs; exact ⟨r', .inl ⟨e, h'⟩, s⟩
  · exact ⟨ts', .inr ⟨e, notNext1_ext h hs, rfl⟩, hs⟩

theorem optTok_ext {k} {ts a r ts'} (h : OptTok k ts a r) (hm : r ≠ [e]) (hs : Ext b e ts ts') (hk : k ≠ .eof := by decide) :
    ∃ r', OptTok k ts' a r' ∧ Ext b e r r' := by
  rcases h with h | ⟨e', h, rfl⟩
  · obtain ⟨r', h', s⟩ := tok1_ext h hs hk; exact ⟨r', .inl h', s⟩
  · exact ⟨ts', .inr ⟨e', notKind_more h hs hm, rfl⟩, hs⟩

theorem bracket_end {ts ts' : Toks} (h : Pu b!"[" ts [e]) (hs : Ext b e ts ts') : NotKind .name b := by
  obtain ⟨t, rfl, h1, h2⟩ := h
  obtain ⟨he, hb, pre, e1, rfl, hl⟩ := hs
  have : pre = [t] := by
    have : [t] ++ [e] = pre ++ [e] := e1
    exact (List.append_cancel_right this).symm
  subst this
  rcases hl with hl | hl
  · exact hl
  · exact absurd ⟨h1, h2⟩ (hl t rfl)

section
variable {pf : Bytes → Option Nat} {lax : Bool}

mutual
theorem typeRef_ext' {ts a r ts'} : TypeRef lax ts a r → Ext b e ts ts' → ∃ r', TypeRef lax ts' a r' ∧ Ext b e r r'
  | .named h1 h2, hs => by
    obtain ⟨_, h1', s1⟩ := tok1_ext h1 hs
    obtain ⟨_, h2', s2⟩ := bang_ext h2 s1
    exact ⟨_, .named h1' h2', s2⟩
  | .list h1 h2 h3 h4, hs => by
    obtain ⟨_, h1', s1⟩ := tok1_ext h1 hs
    obtain ⟨_, h2', s2⟩ := typeRef_ext' h2 s1
    obtain ⟨_, h3', s3⟩ := tok1_ext h3 s2
    obtain ⟨_, h4', s4⟩ := bang_ext h4 s3
    exact ⟨_, .list h1' h2' h3' h4', s4⟩
  | .broken h0 h1 h2, hs => by
    obtain ⟨_, h1', s1⟩ := tok1_ext h1 hs
    obtain ⟨_, h2', s2⟩ := typeStuck_ext h2 s1 (fun e1 => bracket_end (e1 ▸ h1) hs)
    exact ⟨_, .broken h0 h1' h2', s2⟩
theorem typeStuck_ext {ts r ts'} : TypeStuck lax ts r → Ext b e ts ts' → (ts = [e] → NotKind .name b) → ∃ r', TypeStuck lax ts' r' ∧ Ext b e r r'
  | .start h1 h2, hs, hx => by
    refine ⟨_, .start ?_ (notNext1_ext h2 hs), hs⟩
    by_cases hm : ts = [e]
    · subst hm
      rw [ext_end hs]
      exact hx rfl
    · exact notKind_more h1 hs hm
  | .unclosed h1 h2 h3, hs, _ => by
    obtain ⟨_, h1', s1⟩ := tok1_ext h1 hs
    obtain ⟨_, h2', s2⟩ := typeRef_ext' h2 s1
    exact ⟨_, .unclosed h1' h2' (notNext1_ext h3 s2), s2⟩
end

theorem typeRef_ext : InvE b e (TypeRef lax) := fun h hs => typeRef_ext' h hs

theorem namedType_ext : InvE b e (NamedType lax) := by
  intro ts a r ts' h hs
  cases h with
  | mk h1 h2 h3 =>
    obtain ⟨_, h1', s1⟩ := tok1_ext h1 hs
    obtain ⟨_, h2', s2⟩ := bang_ext h2 s1
    exact ⟨_, .mk h1' h2' h3, s2⟩

theorem memberType_ext : InvE b e (MemberType lax) := by
  intro ts a r ts' h hs
  obtain ⟨_, h1', s1⟩ := typeRef_ext h.1 hs
  exact ⟨_, ⟨h1', h.2⟩, s1⟩

mutual
theorem val_ext' {c ts a r ts'} : Val pf lax c ts a r → Ext b e ts ts' → ∃ r', Val pf lax c ts' a r' ∧ Ext b e r r'
  | .var h0 h1 h2, hs => by
    obtain ⟨_, h1', s1⟩ := tok1_ext h1 hs
    obtain ⟨_, h2', s2⟩ := tok1_ext h2 s1
    exact ⟨_, .var h0 h1' h2', s2⟩
  | .int h h2 h3, hs => by obtain ⟨_, h', s⟩ := tok1_ext h hs; exact ⟨_, .int h' h2 h3, s⟩
  | .float h h2, hs => by obtain ⟨_, h', s⟩ := tok1_ext h hs; exact ⟨_, .float h' h2, s⟩
  | .str h, hs => by obtain ⟨_, h', s⟩ := tok1_ext h hs; exact ⟨_, .str h', s⟩
  | .tru h, hs => by obtain ⟨_, h', s⟩ := tok1_ext h hs; exact ⟨_, .tru h', s⟩
  | .fls h, hs => by obtain ⟨_, h', s⟩ := tok1_ext h hs; exact ⟨_, .fls h', s⟩
  | .null h, hs => by obtain ⟨_, h', s⟩ := tok1_ext h hs; exact ⟨_, .null h', s⟩
  | .enum h h2 h3 h4, hs => by obtain ⟨_, h', s⟩ := tok1_ext h hs; exact ⟨_, .enum h' h2 h3 h4, s⟩
  | .list h1 h2 h3, hs => by
    obtain ⟨_, h1', s1⟩ := tok1_ext h1 hs
    obtain ⟨_, h2', s2⟩ := vals_ext h2 s1
    obtain ⟨_, h3', s3⟩ := tok1_ext h3 s2
    exact ⟨_, .list h1' h2' h3', s3⟩
  | .obj h1 h2 h3, hs => by
    obtain ⟨_, h1', s1⟩ := tok1_ext h1 hs
    obtain ⟨_, h2', s2⟩ := flds_ext h2 s1
    obtain ⟨_, h3', s3⟩ := tok1_ext h3 s2
    exact ⟨_, .obj h1' h2' h3', s3⟩
theorem vals_ext {c ts a r ts'} : Vals pf lax c ts a r → Ext b e ts ts' → ∃ r', Vals pf lax c ts' a r' ∧ Ext b e r r'
  | .nil _, hs => ⟨_, .nil _, hs⟩
  | .cons h1 h2, hs => by
    obtain ⟨_, h1', s1⟩ := val_ext' h1 hs
    obtain ⟨_, h2', s2⟩ := vals_ext h2 s1
    exact ⟨_, .cons h1' h2', s2⟩
theorem flds_ext {c ts a r ts'} : Flds pf lax c ts a r → Ext b e ts ts' → ∃ r', Flds pf lax c ts' a r' ∧ Ext b e r r'
  | .nil _, hs => ⟨_, .nil _, hs⟩
  | .cons h1 h2 h3 h4, hs => by
    obtain ⟨_, h1', s1⟩ := tok1_ext h1 hs
    obtain ⟨_, h2', s2⟩ := tok1_ext h2 s1
    obtain ⟨_, h3', s3⟩ := val_ext' h3 s2
    obtain ⟨_, h4', s4⟩ := flds_ext h4 s3
    exact ⟨_, .cons h1' h2' h3' h4', s4⟩
end

theorem val_ext {c} : InvE b e (Val pf lax c) := fun h hs => val_ext' h hs

theorem default_ext : InvE b e (Default pf lax) := by
  intro ts a r ts' h hs
  cases h with
  | none h => exact ⟨_, .none (notNext1_ext h hs), hs⟩
  | some h1 h2 =>
    obtain ⟨_, h1', s1⟩ := tok1_ext h1 hs
    obtain ⟨_, h2', s2⟩ := val_ext h2 s1
    exact ⟨_, .some h1' h2', s2⟩

theorem arg_ext {c} : InvE b e (Arg pf lax c) := by
  intro ts a r ts' h hs
  cases h with
  | mk h1 h2 h3 =>
    obtain ⟨_, h1', s1⟩ := tok1_ext h1 hs
    obtain ⟨_, h2', s2⟩ := tok1_ext h2 s1
    obtain ⟨_, h3', s3⟩ := val_ext h3 s2
    exact ⟨_, .mk h1' h2' h3', s3⟩

theorem args_ext {c} : InvE b e (Args pf lax c) := by
  intro ts a r ts' h hs
  cases h with
  | none h => exact ⟨_, .none (notNext1_ext h hs), hs⟩
  | some h1 h2 h3 h4 =>
    obtain ⟨_, h1', s1⟩ := tok1_ext h1 hs
    obtain ⟨_, h2', s2⟩ := many_ext h2 (fun _ _ _ _ => arg_ext) s1
    obtain ⟨_, h3', s3⟩ := tok1_ext h3 s2
    exact ⟨_, .some h1' h2' h3' h4, s3⟩

theorem dir_ext {c loc} : InvE b e (Dir pf lax c loc) := by
  intro ts a r ts' h hs
  cases h with
  | mk h1 h2 h3 =>
    obtain ⟨_, h1', s1⟩ := tok1_ext h1 hs
    obtain ⟨_, h2', s2⟩ := tok1_ext h2 s1
    obtain ⟨_, h3', s3⟩ := args_ext h3 s2
    exact ⟨_, .mk h1' h2' h3', s3⟩

theorem dirs_ext {c loc} : InvE b e (Dirs pf lax c loc) := by
  intro ts a r ts' h hs
  obtain ⟨_, h1', s1⟩ := many_ext h.1 (fun _ _ _ _ => dir_ext) hs
  exact ⟨_, ⟨h1', notNext1_ext h.2 s1⟩, s1⟩

theorem typeCond_ext : InvE b e (TypeCond lax) := by
  intro ts a r ts' h hs
  cases h with
  | mk h1 h2 =>
    obtain ⟨_, h1', s1⟩ := tok1_ext h1 hs
    obtain ⟨_, h2', s2⟩ := namedType_ext h2 s1
    exact ⟨_, .mk h1' h2', s2⟩

theorem optCond_ext : InvM b e (OptCond lax) := by
  intro ts a r ts' h hm hs
  cases h with
  | none h => exact ⟨_, .none (notNext1_more h hs hm), hs⟩
  | some h1 =>
    obtain ⟨_, h1', s1⟩ := typeCond_ext h1 hs
    exact ⟨_, .some h1', s1⟩

theorem noImpl_ext {ts ts' : Toks} (h : NotNext1 .name b!"implements" ts) (hs : Ext b e ts ts') : NotNext1 .name b!"implements" ts' := by
  by_cases hm : ts = [e]
  · subst hm
    rw [ext_end hs]
    exact hs.2.1.noImpl
  · exact notNext1_more h hs hm

theorem noBrace_ext {ts ts' : Toks} (h : NotNext1 .punctuator b!"{" ts) (hs : Ext b e ts ts') (hx : ts = [e] → NotNext1 .punctuator b!"{" b) :
    NotNext1 .punctuator b!"{" ts' := by
  by_cases hm : ts = [e]
  · subst hm
    rw [ext_end hs]
    exact hx rfl
  · exact notNext1_more h hs hm

theorem args_end {c a r} (he : e.kind = .eof) (h : Args pf lax c [e] a r) : r = [e] := by
  cases h with
  | none h => rfl
  | some h1 h2 h3 h4 => exact absurd rfl (tok1_more h1 he)

theorem dirs_end {c loc a r} (he : e.kind = .eof) (h : Dirs pf lax c loc [e] a r) : r = [e] := by
  cases h.1 with
  | nil => rfl
  | cons h1 h2 => cases h1 with | mk h1 h2 h3 => exact absurd rfl (tok1_more h1 he)

theorem varDefns_end {a r} (he : e.kind = .eof) (h : VarDefns pf lax [e] a r) : r = [e] := by
  cases h with
  | none h => rfl
  | some h1 h2 h3 h4 => exact absurd rfl (tok1_more h1 he)

theorem selSet_more {ts a r} (he : e.kind = .eof) (h : SelSet pf lax ts a r) : ts ≠ [e] := by
  cases h with | mk h1 _ _ => exact tok1_more h1 he

theorem sel_more {ts a r} (he : e.kind = .eof) (h : Sel pf lax ts a r) : ts ≠ [e] := by
  cases h with
  | leaf h1 _ _ _ => cases h1 with
    | plain h1 _ => exact tok1_more h1 he
    | «alias» h1 _ _ => exact tok1_more h1 he
  | node h1 _ _ _ => cases h1 with
    | plain h1 _ => exact tok1_more h1 he
    | «alias» h1 _ _ => exact tok1_more h1 he
  | spread h1 _ _ _ => exact tok1_more h1 he
  | inline h1 _ _ _ => exact tok1_more h1 he

theorem sels_more {ts a r} (he : e.kind = .eof) (h : Sels pf lax ts a r) : ts ≠ [e] := by
  cases h with
  | one h => exact sel_more he h
  | cons h _ => exact sel_more he h

theorem typeDefn_more {desc ts a r} (he : e.kind = .eof) (h : TypeDefn pf lax desc ts a r) : ts ≠ [e] := by
  cases h <;> exact tok1_more (by assumption) he

theorem dirDefn_more {desc ts a r} (he : e.kind = .eof) (h : DirDefn pf lax desc ts a r) : ts ≠ [e] := by
  cases h with | mk h1 => exact tok1_more h1 he

theorem fieldName_ext : InvE b e FieldName := by
  intro ts a r ts' h hs
  cases h with
  | plain h1 h2 =>
    obtain ⟨_, h1', s1⟩ := tok1_ext h1 hs
    exact ⟨_, .plain h1' (notNext1_ext h2 s1), s1⟩
  | alias h1 h2 h3 =>
    obtain ⟨_, h1', s1⟩ := tok1_ext h1 hs
    obtain ⟨_, h2', s2⟩ := tok1_ext h2 s1
    obtain ⟨_, h3', s3⟩ := tok1_ext h3 s2
    exact ⟨_, .alias h1' h2' h3', s3⟩

mutual
theorem sel_ext {ts a r ts'} : Sel pf lax ts a r → r ≠ [e] → Ext b e ts ts' → ∃ r', Sel pf lax ts' a r' ∧ Ext b e r r'
  | .leaf h1 h2 h3 h4, hm, hs => by
    obtain ⟨_, h1', s1⟩ := fieldName_ext h1 hs
    obtain ⟨_, h2', s2⟩ := args_ext h2 s1
    obtain ⟨_, h3', s3⟩ := dirs_ext h3 s2
    exact ⟨_, .leaf h1' h2' h3' (notNext1_more h4 s3 hm), s3⟩
  | .node h1 h2 h3 h4, _, hs => by
    obtain ⟨_, h1', s1⟩ := fieldName_ext h1 hs
    obtain ⟨_, h2', s2⟩ := args_ext h2 s1
    obtain ⟨_, h3', s3⟩ := dirs_ext h3 s2
    obtain ⟨_, h4', s4⟩ := selSet_ext h4 s3
    exact ⟨_, .node h1' h2' h3' h4', s4⟩
  | .spread h1 h2 h3 h4, _, hs => by
    obtain ⟨_, h1', s1⟩ := tok1_ext h1 hs
    obtain ⟨_, h2', s2⟩ := tok1_ext h2 s1
    obtain ⟨_, h4', s4⟩ := dirs_ext h4 s2
    exact ⟨_, .spread h1' h2' h3 h4', s4⟩
  | .inline h1 h2 h3 h4, _, hs => by
    obtain ⟨_, h1', s1⟩ := tok1_ext h1 hs
    obtain ⟨_, h2', s2⟩ := optCond_ext h2 (fun e1 => selSet_more s1.1 h4 (dirs_end s1.1 (e1 ▸ h3))) s1
    obtain ⟨_, h3', s3⟩ := dirs_ext h3 s2
    obtain ⟨_, h4', s4⟩ := selSet_ext h4 s3
    exact ⟨_, .inline h1' h2' h3' h4', s4⟩
theorem sels_ext {ts a r ts'} : Sels pf lax ts a r → r ≠ [e] → Ext b e ts ts' → ∃ r', Sels pf lax ts' a r' ∧ Ext b e r r'
  | .one h1, hm, hs => by obtain ⟨_, h1', s1⟩ := sel_ext h1 hm hs; exact ⟨_, .one h1', s1⟩
  | .cons h1 h2, hm, hs => by
    obtain ⟨_, h1', s1⟩ := sel_ext h1 (sels_more hs.1 h2) hs
    obtain ⟨_, h2', s2⟩ := sels_ext h2 hm s1
    exact ⟨_, .cons h1' h2', s2⟩
theorem selSet_ext {ts a r ts'} : SelSet pf lax ts a r → Ext b e ts ts' → ∃ r', SelSet pf lax ts' a r' ∧ Ext b e r r'
  | .mk h1 h2 h3, hs => by
    obtain ⟨_, h1', s1⟩ := tok1_ext h1 hs
    obtain ⟨_, h2', s2⟩ := sels_ext h2 (tok1_more h3 hs.1) s1
    obtain ⟨_, h3', s3⟩ := tok1_ext h3 s2
    exact ⟨_, .mk h1' h2' h3', s3⟩
end

theorem varDefn_ext : InvE b e (VarDefn pf lax) := by
  intro ts a r ts' h hs
  cases h with
  | mk h1 h2 h3 h4 h5 =>
    obtain ⟨_, h1', s1⟩ := tok1_ext h1 hs
    obtain ⟨_, h2', s2⟩ := tok1_ext h2 s1
    obtain ⟨_, h3', s3⟩ := tok1_ext h3 s2
    obtain ⟨_, h4', s4⟩ := typeRef_ext h4 s3
    obtain ⟨_, h5', s5⟩ := default_ext h5 s4
    exact ⟨_, .mk h1' h2' h3' h4' h5', s5⟩

theorem varDefns_ext : InvE b e (VarDefns pf lax) := by
  intro ts a r ts' h hs
  cases h with
  | none h => exact ⟨_, .none (notNext1_ext h hs), hs⟩
  | some h1 h2 h3 h4 =>
    obtain ⟨_, h1', s1⟩ := tok1_ext h1 hs
    obtain ⟨_, h2', s2⟩ := many_ext h2 (fun _ _ _ _ => varDefn_ext) s1
    obtain ⟨_, h4', s4⟩ := tok1_ext h4 s2
    exact ⟨_, .some h1' h2' h3 h4', s4⟩

theorem opType_ext : InvE b e OpType := by
  intro ts a r ts' h hs
  cases h with
  | query h => obtain ⟨_, h', s⟩ := tok1_ext h hs; exact ⟨_, .query h', s⟩
  | mutation h => obtain ⟨_, h', s⟩ := tok1_ext h hs; exact ⟨_, .mutation h', s⟩
  | subscription h => obtain ⟨_, h', s⟩ := tok1_ext h hs; exact ⟨_, .subscription h', s⟩

theorem opDefn_ext : InvE b e (OpDefn pf lax) := by
  intro ts a r ts' h hs
  cases h with
  | shorthand h => obtain ⟨_, h', s⟩ := selSet_ext h hs; exact ⟨_, .shorthand h', s⟩
  | full h1 h2 h3 h4 h5 =>
    obtain ⟨_, h1', s1⟩ := opType_ext h1 hs
    obtain ⟨_, h2', s2⟩ := optTok_ext h2 (fun e1 => selSet_more s1.1 h5 (dirs_end s1.1 (varDefns_end s1.1 (e1 ▸ h3) ▸ h4))) s1
    obtain ⟨_, h3', s3⟩ := varDefns_ext h3 s2
    obtain ⟨_, h4', s4⟩ := dirs_ext h4 s3
    obtain ⟨_, h5', s5⟩ := selSet_ext h5 s4
    exact ⟨_, .full h1' h2' h3' h4' h5', s5⟩

theorem fragDefn_ext : InvE b e (FragDefn pf lax) := by
  intro ts a r ts' h hs
  cases h with
  | mk h1 h2 h3 h4 h5 h6 =>
    obtain ⟨_, h1', s1⟩ := tok1_ext h1 hs
    obtain ⟨_, h2', s2⟩ := tok1_ext h2 s1
    obtain ⟨_, h4', s4⟩ := typeCond_ext h4 s2
    obtain ⟨_, h5', s5⟩ := dirs_ext h5 s4
    obtain ⟨_, h6', s6⟩ := selSet_ext h6 s5
    exact ⟨_, .mk h1' h2' h3 h4' h5' h6', s6⟩

theorem opTypeDefn_ext : InvE b e (OpTypeDefn lax) := by
  intro ts a r ts' h hs
  cases h with
  | mk h1 h2 h3 =>
    obtain ⟨_, h1', s1⟩ := opType_ext h1 hs
    obtain ⟨_, h2', s2⟩ := tok1_ext h2 s1
    obtain ⟨_, h3', s3⟩ := namedType_ext h3 s2
    exact ⟨_, .mk h1' h2' h3', s3⟩

theorem opTypeDefns_ext : InvE b e (OpTypeDefns lax) := by
  intro ts a r ts' h hs
  cases h with
  | mk h1 h2 h3 h4 =>
    obtain ⟨_, h1', s1⟩ := tok1_ext h1 hs
    obtain ⟨_, h2', s2⟩ := many_ext h2 (fun _ _ _ _ => opTypeDefn_ext) s1
    obtain ⟨_, h4', s4⟩ := tok1_ext h4 s2
    exact ⟨_, .mk h1' h2' h3 h4', s4⟩

theorem schemaDefn_ext : InvE b e (SchemaDefn pf lax) := by
  intro ts a r ts' h hs
  cases h with
  | mk h1 h2 h3 =>
    obtain ⟨_, h1', s1⟩ := tok1_ext h1 hs
    obtain ⟨_, h2', s2⟩ := dirs_ext h2 s1
    obtain ⟨_, h3', s3⟩ := opTypeDefns_ext h3 s2
    exact ⟨_, .mk h1' h2' h3', s3⟩

theorem schemaExtn_ext {ts a r ts'} (h : SchemaExtn pf lax ts a r) (hs : Ext b e ts ts') (hx : r = [e] → a.ops ≠ [] ∨ NotNext1 .punctuator b!"{" b) :
    ∃ r', SchemaExtn pf lax ts' a r' ∧ Ext b e r r' := by
  cases h with
  | ops h1 h2 h3 =>
    obtain ⟨_, h1', s1⟩ := tok1_ext h1 hs
    obtain ⟨_, h2', s2⟩ := dirs_ext h2 s1
    obtain ⟨_, h3', s3⟩ := opTypeDefns_ext h3 s2
    exact ⟨_, .ops h1' h2' h3', s3⟩
  | dirs h1 h2 h3 h4 =>
    obtain ⟨_, h1', s1⟩ := tok1_ext h1 hs
    obtain ⟨_, h2', s2⟩ := dirs_ext h2 s1
    exact ⟨_, .dirs h1' h2' h3 (noBrace_ext h4 s2 fun e1 => (hx e1).resolve_left (by simp)), s2⟩

theorem inputValue_ext {loc} : InvE b e (InputValue pf lax loc) := by
  intro ts a r ts' h hs
  cases h with
  | mk h1 h2 h3 h4 h5 h6 =>
    obtain ⟨_, h1', s1⟩ := optTok_ext h1 (tok1_more h2 hs.1) hs
    obtain ⟨_, h2', s2⟩ := tok1_ext h2 s1
    obtain ⟨_, h3', s3⟩ := tok1_ext h3 s2
    obtain ⟨_, h4', s4⟩ := typeRef_ext h4 s3
    obtain ⟨_, h5', s5⟩ := default_ext h5 s4
    obtain ⟨_, h6', s6⟩ := dirs_ext h6 s5
    exact ⟨_, .mk h1' h2' h3' h4' h5' h6', s6⟩

theorem argsDef_ext : InvE b e (ArgsDef pf lax) := by
  intro ts a r ts' h hs
  cases h with
  | none h => exact ⟨_, .none (notNext1_ext h hs), hs⟩
  | some h1 h2 h3 h4 =>
    obtain ⟨_, h1', s1⟩ := tok1_ext h1 hs
    obtain ⟨_, h2', s2⟩ := many_ext h2 (fun _ _ _ _ => inputValue_ext) s1
    obtain ⟨_, h4', s4⟩ := tok1_ext h4 s2
    exact ⟨_, .some h1' h2' h3 h4', s4⟩

theorem locName_ext : InvE b e LocName := fun h hs => tok1_ext h hs

theorem dirDefn_ext {desc} : InvE b e (DirDefn pf lax desc) := by
  intro ts a r ts' h hs
  cases h with
  | mk h1 h2 h3 h4 h5 h6 h7 =>
    obtain ⟨_, h1', s1⟩ := tok1_ext h1 hs
    obtain ⟨_, h2', s2⟩ := tok1_ext h2 s1
    obtain ⟨_, h3', s3⟩ := tok1_ext h3 s2
    obtain ⟨_, h4', s4⟩ := argsDef_ext h4 s3
    obtain ⟨_, h5', s5⟩ := tok1_ext h5 s4
    obtain ⟨_, h6', s6⟩ := optPu_ext h6 s5
    obtain ⟨_, h7', s7⟩ := sepBy_ext h7 (fun _ _ _ _ => locName_ext) s6
    exact ⟨_, .mk h1' h2' h3' h4' h5' h6' h7', s7⟩

theorem implements_ext : InvE b e (Implements lax) := by
  intro ts a r ts' h hs
  cases h with
  | none h => exact ⟨_, .none (noImpl_ext h hs), hs⟩
  | some h1 h2 h3 =>
    obtain ⟨_, h1', s1⟩ := tok1_ext h1 hs
    obtain ⟨_, h2', s2⟩ := optPu_ext h2 s1
    obtain ⟨_, h3', s3⟩ := sepBy_ext h3 (fun _ _ _ _ => memberType_ext) s2
    exact ⟨_, .some h1' h2' h3', s3⟩

theorem unionMembers_ext : InvE b e (UnionMembers lax) := by
  intro ts a r ts' h hs
  cases h with
  | none h => exact ⟨_, .none (notNext1_ext h hs), hs⟩
  | some h1 h2 h3 =>
    obtain ⟨_, h1', s1⟩ := tok1_ext h1 hs
    obtain ⟨_, h2', s2⟩ := optPu_ext h2 s1
    obtain ⟨_, h3', s3⟩ := sepBy_ext h3 (fun _ _ _ _ => memberType_ext) s2
    exact ⟨_, .some h1' h2' h3', s3⟩

theorem fieldDefn_ext : InvE b e (FieldDefn pf lax) := by
  intro ts a r ts' h hs
  cases h with
  | mk h1 h2 h3 h4 h5 h6 =>
    obtain ⟨_, h1', s1⟩ := optTok_ext h1 (tok1_more h2 hs.1) hs
    obtain ⟨_, h2', s2⟩ := tok1_ext h2 s1
    obtain ⟨_, h3', s3⟩ := argsDef_ext h3 s2
    obtain ⟨_, h4', s4⟩ := tok1_ext h4 s3
    obtain ⟨_, h5', s5⟩ := typeRef_ext h5 s4
    obtain ⟨_, h6', s6⟩ := dirs_ext h6 s5
    exact ⟨_, .mk h1' h2' h3' h4' h5' h6', s6⟩

theorem block_ext {α : Type} {R : Toks → α → Toks → Prop} {ts a r ts'} (h : Block R ts a r) (hR : InvE' b e R) (hs : Ext b e ts ts')
    (hx : r = [e] → a ≠ [] ∨ NotNext1 .punctuator b!"{" b) :
    ∃ r', Block R ts' a r' ∧ Ext b e r r' := by
  cases h with
  | none h => exact ⟨_, .none (noBrace_ext h hs fun e1 => (hx e1).resolve_left (by simp)), hs⟩
  | some h1 h2 h3 h4 =>
    obtain ⟨_, h1', s1⟩ := tok1_ext h1 hs
    obtain ⟨_, h2', s2⟩ := many_ext h2 hR s1
    obtain ⟨_, h4', s4⟩ := tok1_ext h4 s2
    exact ⟨_, .some h1' h2' h3 h4', s4⟩

theorem enumValDefn_ext : InvE b e (EnumValDefn pf lax) := by
  intro ts a r ts' h hs
  cases h with
  | mk h1 h2 h3 h4 h5 h6 =>
    obtain ⟨_, h1', s1⟩ := optTok_ext h1 (tok1_more h2 hs.1) hs
    obtain ⟨_, h2', s2⟩ := tok1_ext h2 s1
    obtain ⟨_, h6', s6⟩ := dirs_ext h6 s2
    exact ⟨_, .mk h1' h2' h3 h4 h5 h6', s6⟩

theorem typeDefn_ext {desc ts a r ts'} (h : TypeDefn pf lax desc ts a r) (hs : Ext b e ts ts') (hx : r = [e] → TypeClosed a ∨ NotNext1 .punctuator b!"{" b) :
    ∃ r', TypeDefn pf lax desc ts' a r' ∧ Ext b e r r' := by
  cases h with
  | scalar h1 h2 h3 =>
    obtain ⟨_, h1', s1⟩ := tok1_ext h1 hs
    obtain ⟨_, h2', s2⟩ := tok1_ext h2 s1
    obtain ⟨_, h3', s3⟩ := dirs_ext h3 s2
    exact ⟨_, .scalar h1' h2' h3', s3⟩
  | object h1 h2 h3 h4 h5 =>
    obtain ⟨_, h1', s1⟩ := tok1_ext h1 hs
    obtain ⟨_, h2', s2⟩ := tok1_ext h2 s1
    obtain ⟨_, h3', s3⟩ := implements_ext h3 s2
    obtain ⟨_, h4', s4⟩ := dirs_ext h4 s3
    obtain ⟨_, h5', s5⟩ := block_ext h5 (fun _ _ _ _ => fieldDefn_ext) s4 hx
    exact ⟨_, .object h1' h2' h3' h4' h5', s5⟩
  | interface h1 h2 h3 h4 =>
    obtain ⟨_, h1', s1⟩ := tok1_ext h1 hs
    obtain ⟨_, h2', s2⟩ := tok1_ext h2 s1
    obtain ⟨_, h3', s3⟩ := dirs_ext h3 s2
    obtain ⟨_, h4', s4⟩ := block_ext h4 (fun _ _ _ _ => fieldDefn_ext) s3 hx
    exact ⟨_, .interface h1' h2' h3' h4', s4⟩
  | union h1 h2 h3 h4 =>
    obtain ⟨_, h1', s1⟩ := tok1_ext h1 hs
    obtain ⟨_, h2', s2⟩ := tok1_ext h2 s1
    obtain ⟨_, h3', s3⟩ := dirs_ext h3 s2
    obtain ⟨_, h4', s4⟩ := unionMembers_ext h4 s3
    exact ⟨_, .union h1' h2' h3' h4', s4⟩
  | enum h1 h2 h3 h4 =>
    obtain ⟨_, h1', s1⟩ := tok1_ext h1 hs
    obtain ⟨_, h2', s2⟩ := tok1_ext h2 s1
    obtain ⟨_, h3', s3⟩ := dirs_ext h3 s2
    obtain ⟨_, h4', s4⟩ := block_ext h4 (fun _ _ _ _ => enumValDefn_ext) s3 hx
    exact ⟨_, .enum h1' h2' h3' h4', s4⟩
  | input h1 h2 h3 h4 =>
    obtain ⟨_, h1', s1⟩ := tok1_ext h1 hs
    obtain ⟨_, h2', s2⟩ := tok1_ext h2 s1
    obtain ⟨_, h3', s3⟩ := dirs_ext h3 s2
    obtain ⟨_, h4', s4⟩ := block_ext h4 (fun _ _ _ _ => inputValue_ext) s3 hx
    exact ⟨_, .input h1' h2' h3' h4', s4⟩

theorem defn_more {ts a r} (he : e.kind = .eof) (h : Defn pf lax ts a r) : ts ≠ [e] := by
  cases h with
  | op h => cases h with
    | shorthand h => exact selSet_more he h
    | full h => cases h <;> exact tok1_more (by assumption) he
  | frag h => cases h with | mk h => exact tok1_more h he
  | schema h => cases h with | mk h => exact tok1_more h he
  | schemaDesc _ h _ => exact tok1_more h he
  | type h1 h2 =>
    rcases h1 with h1 | ⟨_, _, rfl⟩
    · exact tok1_more h1 he
    · exact typeDefn_more he h2
  | directive h1 h2 =>
    rcases h1 with h1 | ⟨_, _, rfl⟩
    · exact tok1_more h1 he
    · exact dirDefn_more he h2
  | schemaExt h _ => exact tok1_more h he
  | typeExt h _ _ => exact tok1_more h he

theorem defn_ext {ts a r ts'} (h : Defn pf lax ts a r) (hs : Ext b e ts ts') (hx : r = [e] → Closed a ∨ NotNext1 .punctuator b!"{" b) :
    ∃ r', Defn pf lax ts' a r' ∧ Ext b e r r' := by
  cases h with
  | op h => obtain ⟨_, h', s⟩ := opDefn_ext h hs; exact ⟨_, .op h', s⟩
  | frag h => obtain ⟨_, h', s⟩ := fragDefn_ext h hs; exact ⟨_, .frag h', s⟩
  | schema h => obtain ⟨_, h', s⟩ := schemaDefn_ext h hs; exact ⟨_, .schema h', s⟩
  | schemaDesc h0 h1 h2 =>
    obtain ⟨_, h1', s1⟩ := tok1_ext h1 hs
    obtain ⟨_, h2', s2⟩ := schemaDefn_ext h2 s1
    exact ⟨_, .schemaDesc h0 h1' h2', s2⟩
  | type h1 h2 =>
    obtain ⟨_, h1', s1⟩ := optTok_ext h1 (typeDefn_more hs.1 h2) hs
    obtain ⟨_, h2', s2⟩ := typeDefn_ext h2 s1 hx
    exact ⟨_, .type h1' h2', s2⟩
  | directive h1 h2 =>
    obtain ⟨_, h1', s1⟩ := optTok_ext h1 (dirDefn_more hs.1 h2) hs
    obtain ⟨_, h2', s2⟩ := dirDefn_ext h2 s1
    exact ⟨_, .directive h1' h2', s2⟩
  | schemaExt h1 h2 =>
    obtain ⟨_, h1', s1⟩ := tok1_ext h1 hs
    obtain ⟨_, h2', s2⟩ := schemaExtn_ext h2 s1 hx
    exact ⟨_, .schemaExt h1' h2', s2⟩
  | typeExt h1 h2 h3 =>
    obtain ⟨_, h1', s1⟩ := tok1_ext h1 hs
    obtain ⟨_, h2', s2⟩ := typeDefn_ext h2 s1 hx
    exact ⟨_, .typeExt h1' h2' h3, s2⟩


/-- The definitions up to the end of the input, with more input after it. -/
theorem defs_ext {ts ts' : Toks} {ds : List Definition} {rest : Toks} (h : Many (LocDefn pf lax) ts ds rest) (he : rest = [e]) (hd : ds ≠ [])
    (hs : Ext b e ts ts') (hx : ∀ d ∈ ds.getLast?, Closed d.body ∨ NotNext1 .punctuator b!"{" b) : Many (LocDefn pf lax) ts' ds b := by
  induction h generalizing ts' with
  | nil => exact absurd rfl hd
  | @cons ts d r ds rest h1 h2 ih =>
    subst he
    have hr : ds = [] ↔ r = [e] := by
      constructor
      · rintro rfl; cases h2; rfl
      · rintro rfl
        cases h2 with
        | nil => rfl
        | cons h _ => cases h with | mk h => exact absurd rfl (defn_more hs.1 h)
    cases h1 with
    | @mk t us bd _ h1 =>
      obtain ⟨r', h1', s1⟩ := defn_ext h1 hs (fun e1 => hx ⟨⟨t.line, t.col⟩, bd⟩ (by rw [hr.2 e1]; rfl))
      obtain ⟨us', rfl⟩ : ∃ us', ts' = t :: us' := by
        obtain ⟨he, hb, pre, e1, rfl, -⟩ := hs
        cases pre with
        | nil =>
          simp only [List.nil_append, List.cons.injEq] at e1
          obtain ⟨rfl, rfl⟩ := e1
          exact absurd rfl (defn_more he h1)
        | cons t' pre =>
          simp only [List.cons_append, List.cons.injEq] at e1
          exact ⟨pre ++ b, by rw [e1.1]; rfl⟩
      by_cases hn : ds = []
      · subst hn
        obtain rfl := hr.1 rfl
        rw [ext_end s1] at h1'
        exact .cons (.mk h1') (.nil _)
      · refine .cons (.mk h1') (ih rfl hn s1 ?_)
        intro d hd
        refine hx d ?_
        cases ds with
        | nil => exact absurd rfl hn
        | cons y ds => simpa [List.getLast?_cons_cons] using hd

end

end

end GQL
