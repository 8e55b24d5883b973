/-
Completing what has been read: the parts of type system definitions.
-/
import Verif.Proofs.ParseViaDefs

namespace GQL
open Spec Spec.Syntax

theorem p_assoc {α β γ : Type} (p : P α) (f : α → P β) (g : β → P γ) : (p >>= f) >>= g = p >>= fun a => f a >>= g := by
  funext ts
  show P.bind (P.bind p f) g ts = P.bind p (fun a => P.bind (f a) g) ts
  unfold P.bind
  cases p ts <;> rfl

theorem SepBy.imp {α : Type} {R R' : Toks → α → Toks → Prop} {l : Bytes} {ts r : Toks} {as : List α} (h : SepBy R l ts as r)
    (hR : ∀ {ts a r}, R ts a r → R' ts a r) : SepBy R' l ts as r := by
  induction h with
  | one h1 h2 => exact .one (hR h1) h2
  | cons h1 h2 _ ih => exact .cons (hR h1) h2 ih

theorem p_pure {α β : Type} (a : α) (f : α → P β) : (pure a : P α) >>= f = f a := rfl

theorem bind_pure_named {β : Type} (n : Nat) (g : Ty → β) :
    (parseType n >>= fun t => mustBeNamed t >>= fun _ => pure (g t)) =
      (parseType n >>= fun t => mustBeNamed t >>= fun _ => pure t) >>= fun t => pure (g t) := by
  simp only [p_assoc, p_pure]

/-- An error about a type after `query:` and the like. -/
def DOp (e : PErr) (s : Toks) : Prop :=
  AsksType e ∧ ∃ x o c z, s = x ++ o :: c :: z ∧ (o.kind = .name ∧ (o.lit = b!"query" ∨ o.lit = b!"mutation" ∨ o.lit = b!"subscription")) ∧
    (c.kind = .punctuator ∧ c.lit = b!":") ∧ Brackets z

theorem closed_DOp : Closed DOp := by
  rintro e c s ⟨h, x, o, d, z, rfl, h2⟩
  exact ⟨h, c ++ x, o, d, z, by simp, h2⟩

def CloseF : Fol := [(.punctuator, b!"}")]

theorem parseOperationType_one {c r : Toks} {k : OpKind} (h : parseOperationType (c ++ r) = .ok k r) :
    ∃ o, c = [o] ∧ o.kind = .name ∧ (o.lit = b!"query" ∨ o.lit = b!"mutation" ∨ o.lit = b!"subscription") := by
  rw [parseOperationType, bind_ok] at h
  obtain ⟨t, m, h1, h⟩ := h
  obtain ⟨-, h2⟩ := pure_ok.1 h
  obtain ⟨h3, hk, hl⟩ := (mustConsumen_ok (by decide) (by simp)).1 h1
  have hc : c = [t] := List.append_cancel_right (bs := r) (by rw [h3, ← h2]; rfl)
  exact ⟨t, hc, hk, by simpa using hl⟩

theorem via_opTypeDefn (n : Nat) : Via DOp CloseF [(.name, b!"query")] (OpTypeDefn true) (parseOperationTypeDefinition n) := by
  rw [parseOperationTypeDefinition]
  refine (via_bindD (D2 := fun e s => AsksType e ∧ ∃ c z, s = c :: z ∧ (c.kind = .punctuator ∧ c.lit = b!":") ∧ Brackets z) (F1 := [(.punctuator, b!"}"), (.punctuator, b!":")]) ?_
    via_opType (fun k => via_mustD (F := CloseF) (D1 := fun e s => AsksType e ∧ Brackets s) (R1 := SeqD (NamedType true) (fun t => Ret (⟨t, k⟩ : OpTypeDef))) (H1 := [(.name, b!"a")]) ?_ ?_)).imp ?_
  · rintro e c s a r hp ⟨h1, d, z, rfl, h2, h3⟩
    obtain ⟨o, rfl, h4⟩ := parseOperationType_one hp
    exact ⟨h1, [], o, d, z, rfl, h4, h2, h3⟩
  · rintro e t s h1 h2 ⟨h3, h4⟩
    exact ⟨h3, t, s, rfl, ⟨h1, h2⟩, h4⟩
  · rw [bind_pure_named n (fun t => (⟨t, k⟩ : OpTypeDef))]
    exact via_bindD (F1 := CloseF) (D2 := fun _ _ => False) (fun e c s a r _ h => h.elim) (via_named (fun e s h1 h2 => ⟨h1, h2⟩) n) (fun t => via_pure (F := CloseF) _)
  · rintro ts a r ⟨k, m, h1, m2, h2, t, m3, h3, rfl, rfl⟩
    exact .mk h1 h2 h3

theorem via_opTypeDefns {F : Fol} (n : Nat) : Via DOp F [(.punctuator, b!"{")] (OpTypeDefns true) (parseOperationTypeDefinitions n) := by
  rw [parseOperationTypeDefinitions]
  refine (via_must closed_DOp (via_doPeekEof (Fb := CloseF) (l := b!"}") (via_opTypeDefn n) closed_DOp)).imp ?_
  rintro ts a r ⟨m, h1, m2, h2, h3, h4⟩
  exact .mk h1 h2 h3 h4

section
variable {D : PErr → Toks → Prop} {F H : Fol} {α : Type}

/-- Something that says nothing is refused. -/
theorem via_reject {R : Toks → α → Toks → Prop} {p : P α} {bad : α → Prop} [DecidablePred bad] {w : List Bytes} (hp : Via D F H R p)
    (hb : ∀ ts a r, R ts a r → bad a → ts = r) (st : ∃ w a, Pl w ∧ ∀ r', In F r' → (R (w ++ r') a r' ∧ ¬ bad a) ∧ In H (w ++ r'))
    (hw : w ≠ enumWant := by decide) (hF : ∃ r, In F r) :
    Via D F H (fun ts a r => R ts a r ∧ ¬ bad a) (p >>= fun a => if bad a then unexpectedCur w else pure a) := by
  constructor
  · intro ts a r h
    obtain ⟨a', m, e1, e2⟩ := bind_ok.1 h
    by_cases hbad : bad a'
    · rw [if_pos hbad] at e2; exact (unexpectedCur_ok.1 e2).elim
    · rw [if_neg hbad] at e2
      obtain ⟨rfl, rfl⟩ := pure_ok.1 e2
      obtain ⟨c, h1, h2⟩ := hp.ok _ _ _ e1
      exact ⟨c, h1, fun r' hr => ⟨h2 r' hr, hbad⟩⟩
  · intro ts e r h
    rcases bind_err.1 h with e1 | ⟨a, m, e1, e2⟩
    · obtain ⟨c, h1, h2, h3⟩ := hp.err _ _ _ e1
      refine ⟨c, h1, h2, ?_⟩
      rcases h3 with h3 | h3 | ⟨w', a, hw', h3⟩
      · exact .inl h3
      · exact .inr (.inl h3)
      · by_cases hbad : bad a
        · obtain ⟨r0, hr0⟩ := hF
          have := hb _ _ _ (h3 r0 hr0) hbad
          rw [← List.append_assoc] at this
          have := List.append_left_eq_self.1 this
          exact .inl (List.append_eq_nil_iff.1 this).1
        · exact .inr (.inr ⟨w', a, hw', fun r' hr => ⟨h3 r' hr, hbad⟩⟩)
    · by_cases hbad : bad a
      · rw [if_pos hbad] at e2
        obtain ⟨rfl, rfl⟩ := unexpectedCur_err e2
        obtain ⟨c, h1, h2⟩ := hp.ok _ _ _ e1
        have := hb _ _ _ (h2 r (.inl rfl)) hbad
        refine via_err0 (this.symm.trans h1.symm) (late_unexpected hw)
      · rw [if_neg hbad] at e2; cases e2
  · exact st

end

section
variable {pf : Bytes → Option Nat}

theorem via_schemaDefn {D : PErr → Toks → Prop} (hD : ∀ e t s, t.kind = .name → t.lit = b!"schema" → DOp e s → D e (t :: s)) (n : Nat) :
    Via D Ef [(.name, b!"schema")] (SchemaDefn pf true) (parseSchemaDefinition pf n) := by
  rw [parseSchemaDefinition]
  refine (via_mustD hD (via_bind closed_DOp (F1 := EfB) (via_directives closed_DOp n true _) (fun ds => via_bind closed_DOp (F1 := Ef) (via_opTypeDefns n) (fun ops => via_pure (F := Ef) _)))).imp ?_
  rintro ts a r ⟨m, h1, ds, m2, h2, ops, m3, h3, rfl, rfl⟩
  exact .mk h1 h2 h3

/-- The rest of a schema extension. -/
def ExtR (pf : Bytes → Option Nat) : Toks → List Directive × List OpTypeDef → Toks → Prop :=
  SeqD (Dirs pf true true .schema) (fun ds => SeqD (fun ts a r => OpTypeDefns true ts a r ∨ (NotNext1 .punctuator b!"{" ts ∧ Ret [] ts a r)) (fun ops => Ret (ds, ops)))

theorem dirs_nil {c : Bool} {loc : DirLoc} {ts r : Toks} (h : Dirs pf true c loc ts [] r) : ts = r := many_nil h.1

theorem extR_nil {ts r : Toks} (h : ExtR pf ts ([], []) r) : ts = r := by
  obtain ⟨ds, m, h1, ops, m2, h2, h3, rfl⟩ := h
  obtain ⟨rfl, rfl⟩ := Prod.mk.inj h3
  have h1 := dirs_nil h1
  subst h1
  rcases h2 with h2 | ⟨-, -, h2⟩
  · cases h2 with
    | mk _ _ h _ => exact absurd rfl h
  · exact h2.symm

theorem ext_prog (n : Nat) : (parseDirectives pf n .schema >>= fun dirs => (peek1 .punctuator b!"{" >>= fun b => if b = true then parseOperationTypeDefinitions n else pure []) >>= fun ops =>
      if dirs.length = 0 ∧ ops.length = 0 then unexpectedCur [] else pure (⟨dirs, ops⟩ : SchemaDef)) =
    ((parseDirectives pf n .schema >>= fun dirs => (peek1 .punctuator b!"{" >>= fun b => if b = true then parseOperationTypeDefinitions n else pure []) >>= fun ops => pure (dirs, ops)) >>= fun x =>
      if x.1.length = 0 ∧ x.2.length = 0 then unexpectedCur [] else pure x) >>= fun x => pure (⟨x.1, x.2⟩ : SchemaDef) := by
  generalize (peek1 .punctuator b!"{" >>= fun b => if b = true then parseOperationTypeDefinitions n else pure []) = q
  simp only [p_assoc, p_pure]
  congr 1
  funext ds
  congr 1
  funext ops
  by_cases h : ds.length = 0 ∧ ops.length = 0
  · rw [if_pos h, if_pos h]; rfl
  · rw [if_neg h, if_neg h]; rfl

theorem via_schemaExtn {D : PErr → Toks → Prop} (hD : ∀ e t s, t.kind = .name → t.lit = b!"schema" → DOp e s → D e (t :: s)) (n : Nat) :
    Via D Ef [(.name, b!"schema")] (SchemaExtn pf true) (parseSchemaExtension pf n) := by
  rw [parseSchemaExtension]
  refine (via_mustD hD (H1 := [(.eof, []), (.punctuator, b!"@")]) (R1 := SeqD (fun ts a r => ExtR pf ts a r ∧ ¬ (a.1.length = 0 ∧ a.2.length = 0)) (fun x => Ret (⟨x.1, x.2⟩ : SchemaDef))) ?_).imp ?_
  · rw [ext_prog n]
    refine via_bind closed_DOp (F1 := Ef) (via_reject (F := Ef) (w := []) (H := [(.eof, []), (.punctuator, b!"@")]) (bad := fun x : List Directive × List OpTypeDef => x.1.length = 0 ∧ x.2.length = 0) ?_ ?_ ?_ (by decide) ⟨[tkn .eof []], List.mem_singleton.2 rfl⟩) (fun x => via_pure (F := Ef) _)
    · exact (via_bind closed_DOp (F1 := Ef) (via_directives closed_DOp n true _) (fun ds => via_bind closed_DOp (F1 := Ef)
        (via_peekMay (via_opTypeDefns n)) (fun ops => via_pure (F := Ef) _))).mono (List.Subset.refl _) (by decide)
    · rintro ts ⟨ds, ops⟩ r h ⟨h1, h2⟩
      cases List.length_eq_zero_iff.1 h1
      cases List.length_eq_zero_iff.1 h2
      exact extR_nil h
    · have hn : ∀ l, (TokenKind.punctuator, l) ∉ Ef := fun l h => by simp [Ef] at h
      refine ⟨[tkn .punctuator b!"@", tkn .name b!"a"], ([⟨b!"a", [], .schema⟩], []), (by plain), fun r' hr => ⟨⟨⟨_, r', ⟨.cons (.mk ⟨_, rfl, rfl, rfl⟩ ⟨_, rfl, rfl, rfl⟩ (.none ?_)) (.nil _), ?_⟩, [], r', .inr ⟨?_, rfl, rfl⟩, rfl, rfl⟩, ?_⟩, ?_⟩⟩
      · exact hr.notNext (by decide) (hn _)
      · exact hr.notNext (by decide) (hn _)
      · exact hr.notNext (by decide) (hn _)
      · simp
      · exact List.mem_cons_of_mem _ (List.mem_singleton.2 rfl)
  · rintro ts a r ⟨m, h1, x, m2, ⟨⟨ds, m3, h2, ops, m4, h3, rfl, rfl⟩, h4⟩, rfl, rfl⟩
    rcases h3 with h3 | ⟨h3, rfl, rfl⟩
    · exact .ops h1 h2 h3
    · refine .dirs h1 h2 ?_ h3
      rintro rfl
      exact h4 ⟨rfl, rfl⟩

end

section
variable {pf : Bytes → Option Nat} {D : PErr → Toks → Prop} (hD : Closed D)
include hD

def IvF : Fol := [(.punctuator, b!")"), (.punctuator, b!"}")]

theorem via_inputValue (n : Nat) (loc : DirLoc) : Via D IvF [(.name, b!"a"), (.punctuator, b!")"), (.punctuator, b!"}")] (InputValue pf true loc) (parseInputValueDefinition pf n loc) := by
  rw [parseInputValueDefinition]
  refine (via_bind hD (F1 := [(.name, b!"a"), (.punctuator, b!")"), (.punctuator, b!"}")]) via_opt (fun desc => via_bind hD (F1 := [(.punctuator, b!":"), (.punctuator, b!")"), (.punctuator, b!"}")])
    (via_tok0 b!"a") (fun t => via_must hD (F := IvF) (via_bind hD (F1 := IvF) (via_type n) (fun ty => via_bind hD (F1 := IvF) (via_default hD n) (fun dv =>
      via_bind hD (F1 := IvF) (via_directives hD n true loc) (fun ds => via_pure (F := IvF) _))))))).imp ?_
  rintro ts a r ⟨o, m1, h1, t, m2, ⟨rfl, hk⟩, m3, h3, ty, m4, h4, dv, m5, h5, ds, m6, h6, rfl, rfl⟩
  exact .mk (optK_optTok h1) ⟨t, rfl, hk, rfl⟩ h3 h4 h5 h6

theorem via_argsDef {F : Fol} (n : Nat) (hF : (.punctuator, b!"(") ∉ F := by decide) : Via D F F (ArgsDef pf true) (parseArgumentsDefinition pf n) := by
  rw [parseArgumentsDefinition]
  refine (via_may hD (via_doPeekEof (Fb := IvF) (l := b!")") (via_inputValue hD n _) hD) hF).imp ?_
  rintro ts a r (⟨m, h1, m2, h2, h3, h4⟩ | ⟨h1, rfl, rfl⟩)
  · exact .some h1 h2 h3 h4
  · exact .none h1

omit hD in
theorem bskip_optPu {l : Bytes} {ts r : Toks} {b : Bool} (h : BSkip .punctuator l ts b r) : OptPu l ts r := by
  rcases h with ⟨-, h⟩ | ⟨-, h, rfl⟩
  · exact .inl h
  · exact .inr ⟨h, rfl⟩

theorem via_locations : Via D Ef [(.eof, []), (.name, b!"QUERY")] (fun ts m r => ∃ ls r1, OptPu b!"|" ts r1 ∧ SepBy LocName b!"|" r1 ls r ∧ m = locMask ls) parseDirectiveLocations := by
  rw [parseDirectiveLocations]
  refine (via_bind hD (F1 := [(.eof, []), (.name, b!"QUERY")]) (via_skip (k := .punctuator) (l := b!"|")) (fun _ => via_bind hD (F1 := Ef) (H1 := [(.name, b!"QUERY")])
    (via_sep (l := b!"|") (Fb := Ef) (via_tokn (k := .name) (ls := directiveLocations) b!"QUERY") hD) (fun ls => via_pure (F := Ef) _))).imp ?_
  rintro ts a r ⟨b, m1, h1, tks, m2, h2, rfl, rfl⟩
  obtain ⟨ls, h3, h4⟩ := sep_locs h2
  exact ⟨ls, m1, bskip_optPu h1, h3, foldl_locs h4⟩

theorem via_dirDefn (n : Nat) (desc : Bytes) : Via D Ef [(.name, b!"directive")] (DirDefn pf true desc) (parseDirectiveDefinition pf n desc) := by
  rw [parseDirectiveDefinition]
  refine (via_skipCrash (fun e t s _ _ h => hD e [t] s h) (via_must hD (F := Ef) (via_bind hD (F1 := [(.eof, []), (.name, b!"on")]) (via_tok0 b!"a") (fun t =>
    via_bind hD (F1 := [(.eof, []), (.name, b!"on")]) (via_argsDef hD n) (fun as => via_must hD (F := Ef) (via_bind hD (F1 := Ef) (via_locations hD) (fun m => via_pure (F := Ef) _))))))).imp ?_
  rintro ts a r ⟨m, h1, m2, h2, t, m3, ⟨rfl, hk⟩, as, m4, h4, m5, h5, lm, m6, ⟨ls, m7, h6, h7, rfl⟩, rfl, rfl⟩
  exact .mk h1 h2 ⟨t, rfl, hk, rfl⟩ h4 h5 h6 h7

theorem via_implements {F : Fol} (n : Nat) (hF : F ⊆ EfB := by decide) : Via D F F (Implements true) (parseImplementsInterfaces n) := by
  rw [parseImplementsInterfaces]
  have hno : ∀ k l, (k, l) ∉ EfB → (k, l) ∉ F := fun k l h h2 => h (hF h2)
  refine (via_may hD (H1 := [(.eof, []), (.punctuator, b!"{"), (.name, b!"a")]) (R1 := SeqD (BSkip .punctuator b!"&") (fun _ => SepBy (TypeRef true) b!"&")) (Via.mono
    (via_bind hD (F := EfB) (F1 := [(.eof, []), (.punctuator, b!"{"), (.name, b!"a")]) (via_skip (k := .punctuator) (l := b!"&")) (fun _ => via_sep (l := b!"&") (Fb := TyF) (via_type n) hD)) hF (List.Subset.refl _))
    (hno _ _ (by decide))).imp ?_
  rintro ts a r (⟨m, h1, b, m2, h2, h3⟩ | ⟨h1, rfl, rfl⟩)
  · exact .some h1 (bskip_optPu h2) (SepBy.imp h3 (fun h => ⟨h, .inl rfl⟩))
  · exact .none h1

theorem via_unionMembers (n : Nat) : Via D Ef Ef (UnionMembers true) (parseUnionMemberTypes n) := by
  rw [parseUnionMemberTypes]
  refine (via_may hD (F := Ef)
    (via_bind hD (F := Ef) (F1 := [(.eof, []), (.name, b!"a")]) (via_skip (k := .punctuator) (l := b!"|")) (fun _ => via_sep (l := b!"|") (Fb := TyF) (via_type n) hD))).imp ?_
  rintro ts a r (⟨m, h1, b, m2, h2, h3⟩ | ⟨h1, rfl, rfl⟩)
  · exact .some h1 (bskip_optPu h2) (SepBy.imp h3 (fun h => ⟨h, .inl rfl⟩))
  · exact .none h1

theorem via_block {α : Type} {body : P α} {R : Toks → α → Toks → Prop} {Hb : Fol} (hb : Via D CloseF Hb R body) :
    Via D Ef Ef (Block R) (skip1 .punctuator b!"{" >>= fun b => if b = true then doWhile body (skip1 .punctuator b!"}") else pure []) := by
  refine (via_may hD (F := Ef) (via_doSkip (l := b!"}") hb hD)).imp ?_
  rintro ts a r (⟨m, h1, m2, h2, h3, h4⟩ | ⟨h1, rfl, rfl⟩)
  · exact .some h1 h2 h3 h4
  · exact .none h1

theorem via_fields (n : Nat) : Via D Ef Ef (Block (FieldDefn pf true)) (parseFieldsDefinition pf n) := by
  refine via_block hD (Hb := [(.name, b!"a"), (.punctuator, b!"}")]) ((via_bind hD (F1 := [(.name, b!"a"), (.punctuator, b!"}")]) via_opt (fun desc => via_bind hD (F1 := [(.punctuator, b!":"), (.punctuator, b!"}")])
    (via_tok0 b!"a") (fun t => via_bind hD (F1 := [(.punctuator, b!":"), (.punctuator, b!"}")]) (via_argsDef hD n) (fun as => via_must hD (F := CloseF) (via_bind hD (F1 := CloseF) (via_type n) (fun ty =>
      via_bind hD (F1 := CloseF) (via_directives hD n true _) (fun ds => via_pure (F := CloseF) _))))))).imp ?_)
  rintro ts a r ⟨o, m1, h1, t, m2, ⟨rfl, hk⟩, as, m3, h3, m4, h4, ty, m5, h5, ds, m6, h6, rfl, rfl⟩
  exact .mk (optK_optTok h1) ⟨t, rfl, hk, rfl⟩ h3 h4 h5 h6

theorem via_inputFields (n : Nat) : Via D Ef Ef (Block (InputValue pf true .inputFieldDefinition)) (parseInputFieldsDefinition pf n) :=
  via_block hD ((via_inputValue hD n _).mono (by decide) (List.Subset.refl _))

theorem via_enumValues (n : Nat) : Via D Ef Ef (Block (EnumValDefn pf true)) (parseEnumValuesDefinition pf n) := by
  refine via_block hD (Hb := [(.name, b!"a"), (.punctuator, b!"}")]) ((via_bind hD (F := CloseF) (F1 := [(.name, b!"a"), (.punctuator, b!"}")]) (H2 := [(.name, b!"a")])
    (R2 := fun o ts a r => ∃ t m ds, ts = t :: m ∧ t.kind = .name ∧ ¬ (t.lit = b!"false" ∨ t.lit = b!"true" ∨ t.lit = b!"null") ∧ Dirs pf true true .enumValue m ds r ∧
      a = (⟨(o.map (·.lit)).getD [], ds, t.lit⟩ : EnumVal)) via_opt (fun o => ?_)).imp ?_)
  · refine via_first (k := .name) (D1 := D) (f := fun t => if t.lit = b!"false" ∨ t.lit = b!"true" ∨ t.lit = b!"null" then
        fail (.unexpected t [expected .name [b!"valid enum value"]]) else parseDirectives pf n .enumValue >>= fun dirs => pure (⟨(o.map (·.lit)).getD [], dirs, t.lit⟩ : EnumVal)) (by decide)
      (fun t m hk => bind_eq ((mustConsume0_ok (by decide)).2 ⟨rfl, hk⟩)) (fun ts hk => ?_) (fun e t s h => hD e [t] s h) (fun t hk => ?_) ?_
    · right
      have he : mustConsume0 .name ts = .err (.unexpected (hd ts) [expected .name []]) ts := by
        unfold mustConsume0
        rw [bind_eq (cur_eq ts), if_pos hk]; rfl
      exact ⟨_, by rw [bind_err_eq he], late_unexpected (by decide)⟩
    · by_cases hb : t.lit = b!"false" ∨ t.lit = b!"true" ∨ t.lit = b!"null"
      · refine .inr (.inr fun ts => ⟨_, by rw [if_pos hb]; rfl, .inl rfl⟩)
      · refine .inl ⟨CloseF, ?_⟩
        rw [if_neg hb]
        refine (via_bind hD (F1 := CloseF) (via_directives hD n true .enumValue) (fun ds => via_pure (F := CloseF) _)).imp ?_
        rintro ts a r ⟨ds, m, h1, rfl, rfl⟩
        exact ⟨t, ts, ds, rfl, hk, hb, h1, rfl⟩
    · refine ⟨[tkn .name b!"a"], _, (by plain), fun r' hr => ⟨⟨_, r', [], rfl, rfl, show ¬ (b!"a" = b!"false" ∨ b!"a" = b!"true" ∨ b!"a" = b!"null") by decide, ⟨.nil _, ?_⟩, rfl⟩, List.mem_singleton.2 rfl⟩⟩
      exact hr.notNext (by decide) (by decide)
  · rintro ts a r ⟨o, m1, h1, t, m, ds, rfl, hk, hb, h2, rfl⟩
    simp only [not_or] at hb
    exact .mk (optK_optTok h1) ⟨t, rfl, hk, rfl⟩ hb.2.1 hb.1 hb.2.2 h2

end

end GQL
