/-
The grammar of the specification is the lax grammar restricted by Spec/Strict.lean.
-/
import Verif.Proofs.ParseAt
import Verif.Proofs.ParseEats

namespace GQL
open Spec

theorem Spec.NoEmptyParens.suffix {a b : Toks} (h : NoEmptyParens a) (e : Eats a b) : NoEmptyParens b := by
  obtain ⟨p, rfl, -⟩ := e
  intro pre t u post e
  exact h (p ++ pre) t u post (by rw [e]; simp)

theorem nep_cons {t : Token} {ts : Toks} (h : NoEmptyParens ts)
    (h2 : ∀ u us, ts = u :: us → ¬ ((t.kind = .punctuator ∧ t.lit = b!"(") ∧ (u.kind = .punctuator ∧ u.lit = b!")"))) :
    NoEmptyParens (t :: ts) := by
  intro pre x u post e
  cases pre with
  | nil =>
    rw [List.nil_append] at e
    obtain ⟨rfl, rfl⟩ := List.cons.inj e
    exact h2 u post rfl
  | cons p pre =>
    rw [List.cons_append] at e
    exact h pre x u post (List.cons.inj e).2

/-- The tokens of a derivation have no `()` if the rest has none. -/
def Back (ts rest : Toks) : Prop := NoEmptyParens rest → NoEmptyParens ts

theorem Back.refl (ts : Toks) : Back ts ts := id
theorem Back.trans {a b c : Toks} (h : Back a b) (h2 : Back b c) : Back a c := fun x => h (h2 x)

theorem tok1_back {k l} {ts rest : Toks} (h : Tok1 k l ts rest) (hk : k ≠ .punctuator ∨ l ≠ b!"(" := by first | exact .inl (by decide) | exact .inr (by decide)) :
    Back ts rest := by
  obtain ⟨t, rfl, rfl, rfl⟩ := h
  intro h
  refine nep_cons h ?_
  rintro u us - ⟨⟨h1, h2⟩, -⟩
  rcases hk with hk | hk
  · exact hk h1
  · exact hk h2

/-- `(` before something that does not begin with `)`. -/
theorem paren_back {l} {ts rest : Toks} (h : Tok1 .punctuator l ts rest)
    (hr : NotNext1 .punctuator b!")" rest) : Back ts rest := by
  obtain ⟨t, rfl, h1, h2⟩ := h
  intro h
  refine nep_cons h ?_
  rintro u us rfl ⟨-, h3, h4⟩
  exact hr us ⟨u, rfl, h3, h4⟩

theorem name_notNext {k l l'} {ts rest : Toks} (h : Tok1 k l ts rest) (hk : k ≠ .punctuator ∨ l ≠ l' := by first | exact .inl (by decide) | exact .inr (by decide)) :
    NotNext1 .punctuator l' ts := by
  obtain ⟨t, rfl, rfl, rfl⟩ := h
  rintro r ⟨u, e, h3, h4⟩
  obtain ⟨rfl, rfl⟩ := List.cons.inj e
  rcases hk with hk | hk
  · exact hk h3
  · exact hk h4

theorem many_back {α : Type} {R : Toks → α → Toks → Prop} {ts rest : Toks} {as : List α}
    (hm : Many R ts as rest) (h : ∀ ts a r, R ts a r → Back ts r) : Back ts rest := by
  induction hm with
  | nil => exact .refl _
  | cons h1 _ ih => exact (h _ _ _ h1).trans ih

theorem sepBy_back {α : Type} {R : Toks → α → Toks → Prop} {l : Bytes} {ts rest : Toks} {as : List α}
    (hm : SepBy R l ts as rest) (h : ∀ ts a r, R ts a r → Back ts r) (hl : l ≠ b!"(" := by decide) : Back ts rest := by
  induction hm with
  | one h1 _ => exact h _ _ _ h1
  | cons h1 h2 _ ih => exact (h _ _ _ h1).trans ((tok1_back h2 (.inr hl)).trans ih)

theorem optPu_back {l : Bytes} {ts rest : Toks} (h : OptPu l ts rest) (hl : l ≠ b!"(" := by decide) : Back ts rest := by
  rcases h with h | ⟨-, rfl⟩
  · exact tok1_back h (.inr hl)
  · exact .refl _

theorem optTok_back {k : TokenKind} {l : Bytes} {ts rest : Toks} (h : OptTok k ts l rest)
    (hk : k ≠ .punctuator := by decide) : Back ts rest := by
  rcases h with h | ⟨-, -, rfl⟩
  · exact tok1_back h (.inl hk)
  · exact .refl _

theorem bang_back {b : Bool} {ts rest : Toks} (h : Bang ts b rest) : Back ts rest := by
  rcases h with ⟨-, h⟩ | ⟨-, -, rfl⟩
  · exact tok1_back h
  · exact .refl _

theorem many_first {α : Type} {R : Toks → α → Toks → Prop} {P : Toks → Prop} {ts rest : Toks} {as : List α}
    (hm : Many R ts as rest) (hne : as ≠ []) (h : ∀ ts a r, R ts a r → P ts) : P ts := by
  cases hm with
  | nil => exact absurd rfl hne
  | cons h1 _ => exact h _ _ _ h1

section
variable {pf : Bytes → Option Nat}

theorem typeRef_back {t} {ts rest : Toks} (h : TypeRef false ts t rest) : tyProper t ∧ Back ts rest := by
  induction t generalizing ts rest with
  | named n b => cases h with | named h1 h2 => exact ⟨trivial, (tok1_back h1).trans (bang_back h2)⟩
  | list t b ih =>
    cases h with
    | list h1 h2 h3 h4 =>
      exact ⟨(ih h2).1, (tok1_back h1).trans ((ih h2).2.trans ((tok1_back h3).trans (bang_back h4)))⟩
  | listNil b => cases h with | broken h => cases h

theorem namedType_back {ts t rest} (h : NamedType false ts t rest) : tyPlain t ∧ Back ts rest := by
  cases h with
  | mk h1 h2 h3 =>
    rcases h3 with rfl | h3
    · exact ⟨⟨_, rfl⟩, (tok1_back h1).trans (bang_back h2)⟩
    · cases h3

theorem memberType_back {ts t rest} (h : MemberType false ts t rest) : tyPlain t ∧ Back ts rest := by
  refine ⟨?_, (typeRef_back h.1).2⟩
  rcases h.2 with h | h
  · cases h
  · exact h

mutual
theorem val_back {c ts v rest} : Val pf false c ts v rest → (c = true → closed v) ∧ Back ts rest
  | .var h h1 h2 => ⟨(by
      rintro rfl; rcases h with h | h <;> cases h), (tok1_back h1).trans (tok1_back h2)⟩
  | .int h h2 h3 => ⟨by intro _; unfold closed; trivial, tok1_back h⟩
  | .float h h2 => ⟨by intro _; unfold closed; trivial, tok1_back h⟩
  | .str h => ⟨by intro _; unfold closed; trivial, tok1_back h⟩
  | .tru h => ⟨by intro _; unfold closed; trivial, tok1_back h⟩
  | .fls h => ⟨by intro _; unfold closed; trivial, tok1_back h⟩
  | .null h => ⟨by intro _; unfold closed; trivial, tok1_back h⟩
  | .enum h h2 h3 h4 => ⟨by intro _; unfold closed; trivial, tok1_back h⟩
  | .list h1 h2 h3 => ⟨by intro hc; unfold closed; exact (vals_back h2).1 hc,
      (tok1_back h1).trans ((vals_back h2).2.trans (tok1_back h3))⟩
  | .obj h1 h2 h3 => ⟨by intro hc; unfold closed; exact (flds_back h2).1 hc,
      (tok1_back h1).trans ((flds_back h2).2.trans (tok1_back h3))⟩
theorem vals_back {c ts vs rest} : Vals pf false c ts vs rest → (c = true → closedList vs) ∧ Back ts rest
  | .nil _ => ⟨by intro _; unfold closedList; trivial, .refl _⟩
  | .cons h1 h2 => ⟨by intro hc; unfold closedList; exact ⟨(val_back h1).1 hc, (vals_back h2).1 hc⟩,
      (val_back h1).2.trans (vals_back h2).2⟩
theorem flds_back {c ts fs rest} : Flds pf false c ts fs rest → (c = true → closedFields fs) ∧ Back ts rest
  | .nil _ => ⟨by intro _; unfold closedFields; trivial, .refl _⟩
  | .cons h1 h2 h3 h4 => ⟨by intro hc; unfold closedFields; exact ⟨(val_back h3).1 hc, (flds_back h4).1 hc⟩,
      (tok1_back h1).trans ((tok1_back h2).trans ((val_back h3).2.trans (flds_back h4).2))⟩
end

theorem default_back {ts d rest} (h : Default pf false ts d rest) : defaultClosed d ∧ Back ts rest := by
  cases h with
  | none h => exact ⟨(by intro v hv; cases hv), .refl _⟩
  | some h1 h2 => exact ⟨(by intro v hv; cases hv; exact (val_back h2).1 rfl), (tok1_back h1).trans (val_back h2).2⟩

theorem arg_back {c ts d rest} (h : Arg pf false c ts d rest) :
    (c = true → closed d.value) ∧ Back ts rest ∧ NotNext1 .punctuator b!")" ts := by
  cases h with
  | mk h1 h2 h3 =>
    exact ⟨(val_back h3).1, (tok1_back h1).trans ((tok1_back h2).trans (val_back h3).2), name_notNext h1⟩

theorem args_back {c ts d rest} (h : Args pf false c ts d rest) :
    (c = true → ∀ a ∈ d, closed a.value) ∧ Back ts rest := by
  cases h with
  | none h => exact ⟨(by intro _ a ha; cases ha), .refl _⟩
  | some h1 h2 h3 h4 =>
    refine ⟨fun hc => many_all h2 (fun _ _ _ h => (arg_back h).1 hc), ?_⟩
    have hne : d ≠ [] := by rcases h4 with h | h; exact h; cases h
    exact (paren_back h1 (many_first h2 hne (fun _ _ _ h => (arg_back h).2.2))).trans
      ((many_back h2 (fun _ _ _ h => (arg_back h).2.1)).trans (tok1_back h3))

theorem dirs_back {c loc ts d rest} (h : Dirs pf false c loc ts d rest) :
    (c = true → dirsClosed d) ∧ Back ts rest := by
  have key : ∀ {ts d rest}, Dir pf false c loc ts d rest → (c = true → ∀ a ∈ d.args, closed a.value) ∧ Back ts rest := by
    intro ts d rest h
    cases h with
    | mk h1 h2 h3 => exact ⟨(args_back h3).1, (tok1_back h1).trans ((tok1_back h2).trans (args_back h3).2)⟩
  exact ⟨fun hc => many_all h.1 (fun _ _ _ h => (key h).1 hc), many_back h.1 (fun _ _ _ h => (key h).2)⟩

theorem typeCond_back {ts t rest} (h : TypeCond false ts t rest) : tyPlain t ∧ Back ts rest := by
  cases h with | mk h1 h2 => exact ⟨(namedType_back h2).1, (tok1_back h1).trans (namedType_back h2).2⟩

theorem optCond_back {ts c rest} (h : OptCond false ts c rest) : (∀ t, c = some t → tyPlain t) ∧ Back ts rest := by
  cases h with
  | none h => exact ⟨(by intro v hv; cases hv), .refl _⟩
  | some h => exact ⟨(by intro v hv; cases hv; exact (typeCond_back h).1), (typeCond_back h).2⟩

theorem fieldName_back {ts t rest} (h : FieldName ts t rest) : Back ts rest := by
  cases h with
  | plain h _ => exact tok1_back h
  | alias h1 h2 h3 => exact (tok1_back h1).trans ((tok1_back h2).trans (tok1_back h3))

mutual
theorem sel_back {ts s rest} : Sel pf false ts s rest → selPlain s ∧ Back ts rest
  | .leaf h1 h2 h3 h4 => ⟨by unfold selPlain selsPlain; trivial,
      (fieldName_back h1).trans ((args_back h2).2.trans (dirs_back h3).2)⟩
  | .node h1 h2 h3 h4 => ⟨by unfold selPlain; exact (selSet_back h4).1,
      (fieldName_back h1).trans ((args_back h2).2.trans ((dirs_back h3).2.trans (selSet_back h4).2))⟩
  | .spread h1 h2 h3 h4 => ⟨by unfold selPlain; trivial, (tok1_back h1).trans ((tok1_back h2).trans (dirs_back h4).2)⟩
  | .inline h1 h2 h3 h4 => ⟨by unfold selPlain; exact ⟨(optCond_back h2).1, (selSet_back h4).1⟩,
      (tok1_back h1).trans ((optCond_back h2).2.trans ((dirs_back h3).2.trans (selSet_back h4).2))⟩
theorem sels_back {ts s rest} : Sels pf false ts s rest → selsPlain s ∧ Back ts rest
  | .one h => ⟨by unfold selsPlain; exact ⟨(sel_back h).1, by unfold selsPlain; trivial⟩, (sel_back h).2⟩
  | .cons h1 h2 => ⟨by unfold selsPlain; exact ⟨(sel_back h1).1, (sels_back h2).1⟩, (sel_back h1).2.trans (sels_back h2).2⟩
theorem selSet_back {ts s rest} : SelSet pf false ts s rest → selsPlain s ∧ Back ts rest
  | .mk h1 h2 h3 => ⟨(sels_back h2).1, (tok1_back h1).trans ((sels_back h2).2.trans (tok1_back h3))⟩
end

theorem varDefn_back {ts d rest} (h : VarDefn pf false ts d rest) :
    varStrict d ∧ Back ts rest ∧ NotNext1 .punctuator b!")" ts := by
  cases h with
  | mk h1 h2 h3 h4 h5 =>
    exact ⟨⟨(typeRef_back h4).1, (default_back h5).1⟩, (tok1_back h1).trans ((tok1_back h2).trans ((tok1_back h3).trans
      ((typeRef_back h4).2.trans (default_back h5).2))), name_notNext h1⟩

theorem varDefns_back {ts ds rest} (h : VarDefns pf false ts ds rest) : (∀ d ∈ ds, varStrict d) ∧ Back ts rest := by
  cases h with
  | none h => exact ⟨(by intro v hv; cases hv), .refl _⟩
  | some h1 h2 h3 h4 =>
    exact ⟨many_all h2 (fun _ _ _ h => (varDefn_back h).1),
      (paren_back h1 (many_first h2 h3 (fun _ _ _ h => (varDefn_back h).2.2))).trans
      ((many_back h2 (fun _ _ _ h => (varDefn_back h).2.1)).trans (tok1_back h4))⟩

theorem opType_back {ts d rest} (h : OpType ts d rest) : Back ts rest := by
  cases h with
  | query h => exact tok1_back h
  | mutation h => exact tok1_back h
  | subscription h => exact tok1_back h

theorem opDefn_back {ts d rest} (h : OpDefn pf false ts d rest) : bodyStrict (.op d) ∧ Back ts rest := by
  cases h with
  | shorthand h => exact ⟨⟨(by intro v hv; cases hv), (selSet_back h).1⟩, (selSet_back h).2⟩
  | full h1 h2 h3 h4 h5 =>
    exact ⟨⟨(varDefns_back h3).1, (selSet_back h5).1⟩, (opType_back h1).trans ((optTok_back h2).trans
      ((varDefns_back h3).2.trans ((dirs_back h4).2.trans (selSet_back h5).2)))⟩

theorem fragDefn_back {ts d rest} (h : FragDefn pf false ts d rest) : bodyStrict (.frag d) ∧ Back ts rest := by
  cases h with
  | mk h1 h2 h3 h4 h5 h6 =>
    exact ⟨⟨(typeCond_back h4).1, (selSet_back h6).1⟩, (tok1_back h1).trans ((tok1_back h2).trans
      ((typeCond_back h4).2.trans ((dirs_back h5).2.trans (selSet_back h6).2)))⟩

theorem opTypeDefns_back {ts ds rest} (h : OpTypeDefns false ts ds rest) : (∀ d ∈ ds, tyPlain d.type) ∧ Back ts rest := by
  have key : ∀ {ts d rest}, OpTypeDefn false ts d rest → tyPlain d.type ∧ Back ts rest := by
    intro ts d rest h
    cases h with
    | mk h1 h2 h3 => exact ⟨(namedType_back h3).1, (opType_back h1).trans ((tok1_back h2).trans (namedType_back h3).2)⟩
  cases h with
  | mk h1 h2 h3 h4 =>
    exact ⟨many_all h2 (fun _ _ _ h => (key h).1),
      (tok1_back h1).trans ((many_back h2 (fun _ _ _ h => (key h).2)).trans (tok1_back h4))⟩

theorem schemaDefn_back {ts d rest} (h : SchemaDefn pf false ts d rest) : schemaStrict d ∧ Back ts rest := by
  cases h with
  | mk h1 h2 h3 =>
    exact ⟨⟨(dirs_back h2).1 rfl, (opTypeDefns_back h3).1⟩, (tok1_back h1).trans ((dirs_back h2).2.trans (opTypeDefns_back h3).2)⟩

theorem schemaExtn_back {ts d rest} (h : SchemaExtn pf false ts d rest) : schemaStrict d ∧ Back ts rest := by
  cases h with
  | ops h1 h2 h3 =>
    exact ⟨⟨(dirs_back h2).1 rfl, (opTypeDefns_back h3).1⟩, (tok1_back h1).trans ((dirs_back h2).2.trans (opTypeDefns_back h3).2)⟩
  | dirs h1 h2 h3 h4 =>
    exact ⟨⟨(dirs_back h2).1 rfl, (by intro v hv; cases hv)⟩, (tok1_back h1).trans (dirs_back h2).2⟩

theorem inputValue_back {loc ts d rest} (h : InputValue pf false loc ts d rest) :
    inputStrict d ∧ Back ts rest ∧ NotNext1 .punctuator b!")" ts := by
  cases h with
  | mk h1 h2 h3 h4 h5 h6 =>
    refine ⟨⟨(typeRef_back h4).1, (default_back h5).1, (dirs_back h6).1 rfl⟩, (optTok_back h1).trans ((tok1_back h2).trans
      ((tok1_back h3).trans ((typeRef_back h4).2.trans ((default_back h5).2.trans (dirs_back h6).2)))), ?_⟩
    rcases h1 with h1 | ⟨-, -, rfl⟩
    · exact name_notNext h1
    · exact name_notNext h2

theorem argsDef_back {ts ds rest} (h : ArgsDef pf false ts ds rest) : (∀ d ∈ ds, inputStrict d) ∧ Back ts rest := by
  cases h with
  | none h => exact ⟨(by intro v hv; cases hv), .refl _⟩
  | some h1 h2 h3 h4 =>
    exact ⟨many_all h2 (fun _ _ _ h => (inputValue_back h).1),
      (paren_back h1 (many_first h2 h3 (fun _ _ _ h => (inputValue_back h).2.2))).trans
      ((many_back h2 (fun _ _ _ h => (inputValue_back h).2.1)).trans (tok1_back h4))⟩

theorem dirDefn_back {desc ts d rest} (h : DirDefn pf false desc ts d rest) : (∀ a ∈ d.args, inputStrict a) ∧ Back ts rest := by
  cases h with
  | mk h1 h2 h3 h4 h5 h6 h7 =>
    exact ⟨(argsDef_back h4).1, (tok1_back h1).trans ((tok1_back h2).trans ((tok1_back h3).trans ((argsDef_back h4).2.trans
      ((tok1_back h5).trans ((optPu_back h6).trans (sepBy_back h7 (fun _ _ _ h => tok1_back h)))))))⟩

theorem implements_back {ts ds rest} (h : Implements false ts ds rest) : (∀ d ∈ ds, tyPlain d) ∧ Back ts rest := by
  cases h with
  | none h => exact ⟨(by intro v hv; cases hv), .refl _⟩
  | some h1 h2 h3 =>
    exact ⟨sepBy_all h3 (fun _ _ _ h => (memberType_back h).1),
      (tok1_back h1).trans ((optPu_back h2).trans (sepBy_back h3 (fun _ _ _ h => (memberType_back h).2)))⟩

theorem fieldDefn_back {ts d rest} (h : FieldDefn pf false ts d rest) : fieldStrict d ∧ Back ts rest := by
  cases h with
  | mk h1 h2 h3 h4 h5 h6 =>
    exact ⟨⟨(typeRef_back h5).1, (argsDef_back h3).1, (dirs_back h6).1 rfl⟩, (optTok_back h1).trans ((tok1_back h2).trans
      ((argsDef_back h3).2.trans ((tok1_back h4).trans ((typeRef_back h5).2.trans (dirs_back h6).2))))⟩

theorem block_back {α : Type} {R : Toks → α → Toks → Prop} {ts d rest} (h : Block R ts d rest)
    (hR : ∀ ts a r, R ts a r → Back ts r) : Back ts rest := by
  cases h with
  | none h => exact .refl _
  | some h1 h2 h3 h4 => exact (tok1_back h1).trans ((many_back h2 hR).trans (tok1_back h4))

theorem unionMembers_back {ts ds rest} (h : UnionMembers false ts ds rest) : (∀ d ∈ ds, tyPlain d) ∧ Back ts rest := by
  cases h with
  | none h => exact ⟨(by intro v hv; cases hv), .refl _⟩
  | some h1 h2 h3 =>
    exact ⟨sepBy_all h3 (fun _ _ _ h => (memberType_back h).1),
      (tok1_back h1).trans ((optPu_back h2).trans (sepBy_back h3 (fun _ _ _ h => (memberType_back h).2)))⟩

theorem enumValDefn_back {ts d rest} (h : EnumValDefn pf false ts d rest) : dirsClosed d.dirs ∧ Back ts rest := by
  cases h with
  | mk h1 h2 h3 h4 h5 h6 =>
    exact ⟨(dirs_back h6).1 rfl, (optTok_back h1).trans ((tok1_back h2).trans (dirs_back h6).2)⟩

theorem typeDefn_back {desc ts d rest} (h : TypeDefn pf false desc ts d rest) : typeStrict d ∧ Back ts rest := by
  cases h with
  | scalar h1 h2 h3 =>
    exact ⟨⟨by simp, by simp, (dirs_back h3).1 rfl, by simp, by simp, by simp⟩,
      (tok1_back h1).trans ((tok1_back h2).trans (dirs_back h3).2)⟩
  | object h1 h2 h3 h4 h5 =>
    exact ⟨⟨(implements_back h3).1, by simp, (dirs_back h4).1 rfl, block_all h5 (fun _ _ _ h => (fieldDefn_back h).1),
      by simp, by simp⟩, (tok1_back h1).trans ((tok1_back h2).trans ((implements_back h3).2.trans ((dirs_back h4).2.trans
        (block_back h5 (fun _ _ _ h => (fieldDefn_back h).2)))))⟩
  | interface h1 h2 h4 h5 =>
    exact ⟨⟨by simp, by simp, (dirs_back h4).1 rfl, block_all h5 (fun _ _ _ h => (fieldDefn_back h).1),
      by simp, by simp⟩, (tok1_back h1).trans ((tok1_back h2).trans ((dirs_back h4).2.trans
        (block_back h5 (fun _ _ _ h => (fieldDefn_back h).2))))⟩
  | union h1 h2 h4 h5 =>
    exact ⟨⟨by simp, (unionMembers_back h5).1, (dirs_back h4).1 rfl, by simp,
      by simp, by simp⟩, (tok1_back h1).trans ((tok1_back h2).trans ((dirs_back h4).2.trans
        (unionMembers_back h5).2))⟩
  | enum h1 h2 h4 h5 =>
    exact ⟨⟨by simp, by simp, (dirs_back h4).1 rfl, by simp, block_all h5 (fun _ _ _ h => (enumValDefn_back h).1),
      by simp⟩, (tok1_back h1).trans ((tok1_back h2).trans ((dirs_back h4).2.trans
        (block_back h5 (fun _ _ _ h => (enumValDefn_back h).2))))⟩
  | input h1 h2 h4 h5 =>
    exact ⟨⟨by simp, by simp, (dirs_back h4).1 rfl, by simp, by simp,
      block_all h5 (fun _ _ _ h => (inputValue_back h).1)⟩, (tok1_back h1).trans ((tok1_back h2).trans ((dirs_back h4).2.trans
        (block_back h5 (fun _ _ _ h => (inputValue_back h).2.1))))⟩

theorem defn_back {ts b rest} (h : Defn pf false ts b rest) : bodyStrict b ∧ Back ts rest := by
  cases h with
  | op h => exact opDefn_back h
  | frag h => exact fragDefn_back h
  | schema h => exact schemaDefn_back h
  | schemaDesc h _ _ => cases h
  | type h1 h2 => exact ⟨(typeDefn_back h2).1, (optTok_back h1).trans (typeDefn_back h2).2⟩
  | directive h1 h2 => exact ⟨(dirDefn_back h2).1, (optTok_back h1).trans (dirDefn_back h2).2⟩
  | schemaExt h1 h2 => exact ⟨(schemaExtn_back h2).1, (tok1_back h1).trans (schemaExtn_back h2).2⟩
  | typeExt h1 h2 h3 =>
    refine ⟨⟨(typeDefn_back h2).1, ?_⟩, (tok1_back h1).trans (typeDefn_back h2).2⟩
    rcases h3 with h3 | h3
    · exact h3
    · cases h3

theorem locDefn_back {ts d rest} (h : LocDefn pf false ts d rest) : bodyStrict d.body ∧ Back ts rest := by
  cases h with | mk h => exact defn_back h

end
/-! From the lax grammar to the strict one. -/

theorem many_strict {α : Type} {R S : Toks → α → Toks → Prop} {ok : α → Prop} {ts rest : Toks} {as : List α}
    (hm : Many R ts as rest) (h : ∀ ts a r, R ts a r → ok a → NoEmptyParens ts → S ts a r)
    (he : ∀ ts a r, R ts a r → Eats1 ts r) (ha : ∀ a ∈ as, ok a) (hn : NoEmptyParens ts) : Many S ts as rest := by
  induction hm with
  | nil => exact .nil _
  | cons h1 _ ih =>
    exact .cons (h _ _ _ h1 (ha _ (by simp)) hn) (ih (fun a h => ha a (by simp [h])) (hn.suffix (he _ _ _ h1).1))

theorem sepBy_strict {α : Type} {R S : Toks → α → Toks → Prop} {ok : α → Prop} {l : Bytes} {ts rest : Toks} {as : List α}
    (hm : SepBy R l ts as rest) (h : ∀ ts a r, R ts a r → ok a → S ts a r) (ha : ∀ a ∈ as, ok a) : SepBy S l ts as rest := by
  induction hm with
  | one h1 h2 => exact .one (h _ _ _ h1 (ha _ (by simp))) h2
  | cons h1 h2 _ ih => exact .cons (h _ _ _ h1 (ha _ (by simp))) h2 (ih (fun a h => ha a (by simp [h])))

theorem block_strict {α : Type} {R S : Toks → α → Toks → Prop} {ok : α → Prop} {ts rest : Toks} {as : List α}
    (hm : Block R ts as rest) (h : ∀ ts a r, R ts a r → ok a → NoEmptyParens ts → S ts a r)
    (he : ∀ ts a r, R ts a r → Eats1 ts r) (ha : ∀ a ∈ as, ok a) (hn : NoEmptyParens ts) : Block S ts as rest := by
  cases hm with
  | none h => exact .none h
  | some h1 h2 h3 h4 => exact .some h1 (many_strict h2 h he ha (hn.suffix (tok1_eats h1).1)) h3 h4

section
variable {pf : Bytes → Option Nat}

theorem typeRef_strict {t} {ts rest : Toks} (h : TypeRef true ts t rest) (ho : tyProper t) : TypeRef false ts t rest := by
  induction t generalizing ts rest with
  | named n b => cases h with | named h1 h2 => exact .named h1 h2
  | list t b ih => cases h with | list h1 h2 h3 h4 => exact .list h1 (ih h2 ho) h3 h4
  | listNil b => exact ho.elim

theorem namedType_strict {ts t rest} (h : NamedType true ts t rest) (ho : tyPlain t) : NamedType false ts t rest := by
  cases h with
  | mk h1 h2 h3 =>
    obtain ⟨n, e⟩ := ho
    cases e
    exact .mk h1 h2 (.inl rfl)

theorem memberType_strict {ts t rest} (h : MemberType true ts t rest) (ho : tyPlain t) : MemberType false ts t rest := by
  refine ⟨typeRef_strict h.1 ?_, .inr ho⟩
  obtain ⟨n, rfl⟩ := ho
  trivial

mutual
theorem val_strict {c ts v rest} : Val pf true c ts v rest → (c = true → closed v) → Val pf false c ts v rest
  | .var _ h1 h2, ho => by
      refine .var ?_ h1 h2
      cases c with
      | false => exact .inl rfl
      | true => have := ho rfl; unfold closed at this; exact this.elim
  | .int h h2 h3, _ => .int h h2 h3
  | .float h h2, _ => .float h h2
  | .str h, _ => .str h
  | .tru h, _ => .tru h
  | .fls h, _ => .fls h
  | .null h, _ => .null h
  | .enum h h2 h3 h4, _ => .enum h h2 h3 h4
  | .list h1 h2 h3, ho => .list h1 (vals_strict h2 (fun hc => by have := ho hc; unfold closed at this; exact this)) h3
  | .obj h1 h2 h3, ho => .obj h1 (flds_strict h2 (fun hc => by have := ho hc; unfold closed at this; exact this)) h3
theorem vals_strict {c ts vs rest} : Vals pf true c ts vs rest → (c = true → closedList vs) → Vals pf false c ts vs rest
  | .nil _, _ => .nil _
  | .cons h1 h2, ho => .cons (val_strict h1 (fun hc => by have := ho hc; unfold closedList at this; exact this.1))
      (vals_strict h2 (fun hc => by have := ho hc; unfold closedList at this; exact this.2))
theorem flds_strict {c ts fs rest} : Flds pf true c ts fs rest → (c = true → closedFields fs) → Flds pf false c ts fs rest
  | .nil _, _ => .nil _
  | .cons h1 h2 h3 h4, ho => .cons h1 h2
      (val_strict h3 (fun hc => by have := ho hc; unfold closedFields at this; exact this.1))
      (flds_strict h4 (fun hc => by have := ho hc; unfold closedFields at this; exact this.2))
end

theorem default_strict {ts d rest} (h : Default pf true ts d rest) (ho : defaultClosed d) : Default pf false ts d rest := by
  cases h with
  | none h => exact .none h
  | some h1 h2 => exact .some h1 (val_strict h2 (fun _ => ho _ rfl))

theorem arg_strict {c ts d rest} (h : Arg pf true c ts d rest) (ho : c = true → closed d.value) : Arg pf false c ts d rest := by
  cases h with | mk h1 h2 h3 => exact .mk h1 h2 (val_strict h3 ho)

theorem args_strict {c ts d rest} (h : Args pf true c ts d rest) (ho : c = true → ∀ a ∈ d, closed a.value)
    (hn : NoEmptyParens ts) : Args pf false c ts d rest := by
  cases h with
  | none h => exact .none h
  | some h1 h2 h3 h4 =>
    refine .some h1 (many_strict (ok := fun a => c = true → closed a.value) h2 (fun _ _ _ h h2 _ => arg_strict h h2)
      (fun _ _ _ => arg_eats) (fun a h hc => ho hc a h) (hn.suffix (tok1_eats h1).1)) h3 (.inl ?_)
    rintro rfl
    cases h2
    obtain ⟨t, rfl, k1, l1⟩ := h1
    obtain ⟨u, rfl, k2, l2⟩ := h3
    exact hn [] t u rest rfl ⟨⟨k1, l1⟩, ⟨k2, l2⟩⟩

theorem dirs_strict {c loc ts d rest} (h : Dirs pf true c loc ts d rest) (ho : c = true → dirsClosed d)
    (hn : NoEmptyParens ts) : Dirs pf false c loc ts d rest := by
  refine ⟨many_strict (ok := fun d => c = true → ∀ a ∈ d.args, closed a.value) h.1 ?_ (fun _ _ _ => dir_eats)
    (fun a h hc => ho hc a h) hn, h.2⟩
  intro ts a r h ho hn
  cases h with
  | mk h1 h2 h3 => exact .mk h1 h2 (args_strict h3 ho ((hn.suffix (tok1_eats h1).1).suffix (tok1_eats h2).1))

theorem typeCond_strict {ts t rest} (h : TypeCond true ts t rest) (ho : tyPlain t) : TypeCond false ts t rest := by
  cases h with | mk h1 h2 => exact .mk h1 (namedType_strict h2 ho)

theorem optCond_strict {ts c rest} (h : OptCond true ts c rest) (ho : ∀ t, c = some t → tyPlain t) :
    OptCond false ts c rest := by
  cases h with
  | none h => exact .none h
  | some h => exact .some (typeCond_strict h (ho _ rfl))

mutual
theorem sel_strict {ts s rest} : Sel pf true ts s rest → selPlain s → NoEmptyParens ts → Sel pf false ts s rest
  | .leaf h1 h2 h3 h4, _, hn =>
    have n1 := hn.suffix (fieldName_eats h1).1
    have n2 := n1.suffix (args_eats h2)
    .leaf h1 (args_strict h2 (by intro h; cases h) n1) (dirs_strict h3 (by intro h; cases h) n2) h4
  | .node h1 h2 h3 h4, ho, hn =>
    have n1 := hn.suffix (fieldName_eats h1).1
    have n2 := n1.suffix (args_eats h2)
    have n3 := n2.suffix (dirs_eats h3)
    .node h1 (args_strict h2 (by intro h; cases h) n1) (dirs_strict h3 (by intro h; cases h) n2)
      (selSet_strict h4 (by unfold selPlain at ho; exact ho) n3)
  | .spread h1 h2 h3 h4, _, hn =>
    .spread h1 h2 h3 (dirs_strict h4 (by intro h; cases h) ((hn.suffix (tok1_eats h1).1).suffix (tok1_eats h2).1))
  | .inline h1 h2 h3 h4, ho, hn =>
    have n1 := hn.suffix (tok1_eats h1).1
    have n2 := n1.suffix (optCond_eats h2)
    have n3 := n2.suffix (dirs_eats h3)
    .inline h1 (optCond_strict h2 (by unfold selPlain at ho; exact ho.1)) (dirs_strict h3 (by intro h; cases h) n2)
      (selSet_strict h4 (by unfold selPlain at ho; exact ho.2) n3)
theorem sels_strict {ts s rest} : Sels pf true ts s rest → selsPlain s → NoEmptyParens ts → Sels pf false ts s rest
  | .one h, ho, hn => .one (sel_strict h (by unfold selsPlain at ho; exact ho.1) hn)
  | .cons h1 h2, ho, hn => .cons (sel_strict h1 (by unfold selsPlain at ho; exact ho.1) hn)
      (sels_strict h2 (by unfold selsPlain at ho; exact ho.2) (hn.suffix (sel_eats h1).1))
theorem selSet_strict {ts s rest} : SelSet pf true ts s rest → selsPlain s → NoEmptyParens ts → SelSet pf false ts s rest
  | .mk h1 h2 h3, ho, hn => .mk h1 (sels_strict h2 ho (hn.suffix (tok1_eats h1).1)) h3
end

theorem varDefn_strict {ts d rest} (h : VarDefn pf true ts d rest) (ho : varStrict d) : VarDefn pf false ts d rest := by
  cases h with
  | mk h1 h2 h3 h4 h5 => exact .mk h1 h2 h3 (typeRef_strict h4 ho.1) (default_strict h5 ho.2)

theorem varDefns_strict {ts d rest} (h : VarDefns pf true ts d rest) (ho : ∀ v ∈ d, varStrict v)
    (hn : NoEmptyParens ts) : VarDefns pf false ts d rest := by
  cases h with
  | none h => exact .none h
  | some h1 h2 h3 h4 =>
    exact .some h1 (many_strict h2 (fun _ _ _ h h2 _ => varDefn_strict h h2) (fun _ _ _ => varDefn_eats) ho
      (hn.suffix (tok1_eats h1).1)) h3 h4

theorem opDefn_strict {ts d rest} (h : OpDefn pf true ts d rest) (ho : bodyStrict (.op d)) (hn : NoEmptyParens ts) :
    OpDefn pf false ts d rest := by
  cases h with
  | shorthand h => exact .shorthand (selSet_strict h ho.2 hn)
  | full h1 h2 h3 h4 h5 =>
    have n1 := (hn.suffix (opType_eats h1).1).suffix (optTok_eats h2)
    have n2 := n1.suffix (varDefns_eats h3)
    exact .full h1 h2 (varDefns_strict h3 ho.1 n1) (dirs_strict h4 (by intro h; cases h) n2)
      (selSet_strict h5 ho.2 (n2.suffix (dirs_eats h4)))

theorem fragDefn_strict {ts d rest} (h : FragDefn pf true ts d rest) (ho : bodyStrict (.frag d)) (hn : NoEmptyParens ts) :
    FragDefn pf false ts d rest := by
  cases h with
  | mk h1 h2 h3 h4 h5 h6 =>
    have n1 := ((hn.suffix (tok1_eats h1).1).suffix (tok1_eats h2).1).suffix (typeCond_eats h4).1
    exact .mk h1 h2 h3 (typeCond_strict h4 ho.1) (dirs_strict h5 (by intro h; cases h) n1)
      (selSet_strict h6 ho.2 (n1.suffix (dirs_eats h5)))

theorem opTypeDefns_strict {ts d rest} (h : OpTypeDefns true ts d rest) (ho : ∀ o ∈ d, tyPlain o.type)
    (hn : NoEmptyParens ts) : OpTypeDefns false ts d rest := by
  cases h with
  | mk h1 h2 h3 h4 =>
    refine .mk h1 (many_strict (ok := fun o => tyPlain o.type) h2 ?_ (fun _ _ _ => opTypeDefn_eats) ho
      (hn.suffix (tok1_eats h1).1)) h3 h4
    intro ts a r h h2 _
    cases h with | mk g1 g2 g3 => exact .mk g1 g2 (namedType_strict g3 h2)

theorem schemaDefn_strict {ts d rest} (h : SchemaDefn pf true ts d rest) (ho : schemaStrict d) (hn : NoEmptyParens ts) :
    SchemaDefn pf false ts d rest := by
  cases h with
  | mk h1 h2 h3 =>
    have n1 := hn.suffix (tok1_eats h1).1
    exact .mk h1 (dirs_strict h2 (fun _ => ho.1) n1) (opTypeDefns_strict h3 ho.2 (n1.suffix (dirs_eats h2)))

theorem schemaExtn_strict {ts d rest} (h : SchemaExtn pf true ts d rest) (ho : schemaStrict d) (hn : NoEmptyParens ts) :
    SchemaExtn pf false ts d rest := by
  cases h with
  | ops h1 h2 h3 =>
    have n1 := hn.suffix (tok1_eats h1).1
    exact .ops h1 (dirs_strict h2 (fun _ => ho.1) n1) (opTypeDefns_strict h3 ho.2 (n1.suffix (dirs_eats h2)))
  | dirs h1 h2 h3 h4 => exact .dirs h1 (dirs_strict h2 (fun _ => ho.1) (hn.suffix (tok1_eats h1).1)) h3 h4

theorem inputValue_strict {loc ts d rest} (h : InputValue pf true loc ts d rest) (ho : inputStrict d) (hn : NoEmptyParens ts) :
    InputValue pf false loc ts d rest := by
  cases h with
  | mk h1 h2 h3 h4 h5 h6 =>
    have n1 := ((((hn.suffix (optTok_eats h1)).suffix (tok1_eats h2).1).suffix (tok1_eats h3).1).suffix
      (typeRef_eats h4).1).suffix (default_eats h5)
    exact .mk h1 h2 h3 (typeRef_strict h4 ho.1) (default_strict h5 ho.2.1) (dirs_strict h6 (fun _ => ho.2.2) n1)

theorem argsDef_strict {ts d rest} (h : ArgsDef pf true ts d rest) (ho : ∀ v ∈ d, inputStrict v)
    (hn : NoEmptyParens ts) : ArgsDef pf false ts d rest := by
  cases h with
  | none h => exact .none h
  | some h1 h2 h3 h4 =>
    exact .some h1 (many_strict h2 (fun _ _ _ => inputValue_strict) (fun _ _ _ => inputValue_eats) ho
      (hn.suffix (tok1_eats h1).1)) h3 h4

theorem dirDefn_strict {desc ts d rest} (h : DirDefn pf true desc ts d rest) (ho : ∀ a ∈ d.args, inputStrict a)
    (hn : NoEmptyParens ts) : DirDefn pf false desc ts d rest := by
  cases h with
  | mk h1 h2 h3 h4 h5 h6 h7 =>
    have n1 := ((hn.suffix (tok1_eats h1).1).suffix (tok1_eats h2).1).suffix (tok1_eats h3).1
    exact .mk h1 h2 h3 (argsDef_strict h4 ho n1) h5 h6 h7

theorem implements_strict {ts d rest} (h : Implements true ts d rest) (ho : ∀ v ∈ d, tyPlain v) : Implements false ts d rest := by
  cases h with
  | none h => exact .none h
  | some h1 h2 h3 => exact .some h1 h2 (sepBy_strict h3 (fun _ _ _ => memberType_strict) ho)

theorem unionMembers_strict {ts d rest} (h : UnionMembers true ts d rest) (ho : ∀ v ∈ d, tyPlain v) :
    UnionMembers false ts d rest := by
  cases h with
  | none h => exact .none h
  | some h1 h2 h3 => exact .some h1 h2 (sepBy_strict h3 (fun _ _ _ => memberType_strict) ho)

theorem fieldDefn_strict {ts d rest} (h : FieldDefn pf true ts d rest) (ho : fieldStrict d) (hn : NoEmptyParens ts) :
    FieldDefn pf false ts d rest := by
  cases h with
  | mk h1 h2 h3 h4 h5 h6 =>
    have n1 := (hn.suffix (optTok_eats h1)).suffix (tok1_eats h2).1
    have n2 := ((n1.suffix (argsDef_eats h3)).suffix (tok1_eats h4).1).suffix (typeRef_eats h5).1
    exact .mk h1 h2 (argsDef_strict h3 ho.2.1 n1) h4 (typeRef_strict h5 ho.1) (dirs_strict h6 (fun _ => ho.2.2) n2)

theorem enumValDefn_strict {ts d rest} (h : EnumValDefn pf true ts d rest) (ho : dirsClosed d.dirs) (hn : NoEmptyParens ts) :
    EnumValDefn pf false ts d rest := by
  cases h with
  | mk h1 h2 h3 h4 h5 h6 =>
    exact .mk h1 h2 h3 h4 h5 (dirs_strict h6 (fun _ => ho) ((hn.suffix (optTok_eats h1)).suffix (tok1_eats h2).1))

theorem typeDefn_strict {desc ts d rest} (h : TypeDefn pf true desc ts d rest) (ho : typeStrict d) (hn : NoEmptyParens ts) :
    TypeDefn pf false desc ts d rest := by
  obtain ⟨o1, o2, o3, o4, o5, o6⟩ := ho
  cases h with
  | scalar h1 h2 h3 =>
    exact .scalar h1 h2 (dirs_strict h3 (fun _ => o3) ((hn.suffix (tok1_eats h1).1).suffix (tok1_eats h2).1))
  | object h1 h2 h3 h4 h5 =>
    have n1 := ((hn.suffix (tok1_eats h1).1).suffix (tok1_eats h2).1).suffix (implements_eats h3)
    exact .object h1 h2 (implements_strict h3 o1) (dirs_strict h4 (fun _ => o3) n1)
      (block_strict h5 (fun _ _ _ => fieldDefn_strict) (fun _ _ _ => fieldDefn_eats) o4 (n1.suffix (dirs_eats h4)))
  | interface h1 h2 h4 h5 =>
    have n1 := (hn.suffix (tok1_eats h1).1).suffix (tok1_eats h2).1
    exact .interface h1 h2 (dirs_strict h4 (fun _ => o3) n1)
      (block_strict h5 (fun _ _ _ => fieldDefn_strict) (fun _ _ _ => fieldDefn_eats) o4 (n1.suffix (dirs_eats h4)))
  | union h1 h2 h4 h5 =>
    have n1 := (hn.suffix (tok1_eats h1).1).suffix (tok1_eats h2).1
    exact .union h1 h2 (dirs_strict h4 (fun _ => o3) n1) (unionMembers_strict h5 o2)
  | enum h1 h2 h4 h5 =>
    have n1 := (hn.suffix (tok1_eats h1).1).suffix (tok1_eats h2).1
    exact .enum h1 h2 (dirs_strict h4 (fun _ => o3) n1)
      (block_strict h5 (fun _ _ _ => enumValDefn_strict) (fun _ _ _ => enumValDefn_eats) o5 (n1.suffix (dirs_eats h4)))
  | input h1 h2 h4 h5 =>
    have n1 := (hn.suffix (tok1_eats h1).1).suffix (tok1_eats h2).1
    exact .input h1 h2 (dirs_strict h4 (fun _ => o3) n1)
      (block_strict h5 (fun _ _ _ => inputValue_strict) (fun _ _ _ => inputValue_eats) o6 (n1.suffix (dirs_eats h4)))

theorem defn_strict {ts b rest} (h : Defn pf true ts b rest) (ho : bodyStrict b) (hn : NoEmptyParens ts)
    (hs : ∀ r' r'', Tok1 .stringValue [] ts r' → ¬ Nm b!"schema" r' r'') : Defn pf false ts b rest := by
  cases h with
  | op h => exact .op (opDefn_strict h ho hn)
  | frag h => exact .frag (fragDefn_strict h ho hn)
  | schema h => exact .schema (schemaDefn_strict h ho hn)
  | schemaDesc _ h1 h2 => cases h2 with | mk h3 _ _ => exact absurd h3 (hs _ _ h1)
  | type h1 h2 => exact .type h1 (typeDefn_strict h2 ho (hn.suffix (optTok_eats h1)))
  | directive h1 h2 => exact .directive h1 (dirDefn_strict h2 ho (hn.suffix (optTok_eats h1)))
  | schemaExt h1 h2 => exact .schemaExt h1 (schemaExtn_strict h2 ho (hn.suffix (tok1_eats h1).1))
  | typeExt h1 h2 h3 => exact .typeExt h1 (typeDefn_strict h2 ho.1 (hn.suffix (tok1_eats h1).1)) (.inl ho.2)

theorem defs_strict {ts ds rest} (hm : Many (LocDefn pf true) ts ds rest) (ho : ∀ d ∈ ds, bodyStrict d.body)
    (hn : NoEmptyParens ts) (hs : NoSchemaDesc pf ts) : Many (LocDefn pf false) ts ds rest := by
  induction hm with
  | nil => exact .nil _
  | @cons ts a r as rest h1 _ ih =>
    have h0 := h1
    cases h1 with
    | mk h1 =>
      refine .cons (.mk (defn_strict h1 (ho _ List.mem_cons_self) hn (fun r' r'' => hs [] _ r' r'' (.nil _))))
        (ih (fun d hd => ho d (by simp [hd])) (hn.suffix (defn_eats h1).1) ?_)
      intro defs r1 r2 r3 hm
      exact hs _ r1 r2 r3 (.cons h0 hm)

end

end GQL
