/-
The grammar does not look into string literals, except that it asks whether one is empty (for C80, C81).
-/
import Verif.Proofs.ParseSim
import Verif.Spec.StrMap

namespace GQL
open Spec

/-- Tokens alike: strings `f`, `g` make the same, everything else the same; the same positions if `P`. -/
inductive SimS (f g : Bytes → Bytes) (P : Prop) : Toks → Toks → Prop
  | nil : SimS f g P [] []
  | cons {t t' ts ts'} : t.kind = t'.kind → (t.kind ≠ .stringValue → t.lit = t'.lit) →
      (t.kind = .stringValue → f t.lit = g t'.lit ∧ (t.lit = [] ↔ t'.lit = [])) → (P → t.line = t'.line ∧ t.col = t'.col) →
      SimS f g P ts ts' → SimS f g P (t :: ts) (t' :: ts')

section
variable {f g : Bytes → Bytes} {P : Prop}

theorem SimS.symm {ts ts' : Toks} (h : SimS f g P ts ts') : SimS g f P ts' ts := by
  induction h with
  | nil => exact .nil
  | cons h1 h2 h3 h4 _ ih =>
    exact .cons h1.symm (fun h => (h2 (h1 ▸ h)).symm) (fun h => ⟨(h3 (h1 ▸ h)).1.symm, (h3 (h1 ▸ h)).2.symm⟩)
      (fun h => ⟨(h4 h).1.symm, (h4 h).2.symm⟩) ih

theorem tok1_str {k l} {ts r ts' : Toks} (h : Tok1 k l ts r) (hs : SimS f g P ts ts') (hk : k ≠ .stringValue := by decide) :
    ∃ r', Tok1 k l ts' r' ∧ SimS f g P r r' := by
  obtain ⟨t, rfl, h1, h2⟩ := h
  cases hs with
  | cons e1 e2 _ _ hs => exact ⟨_, ⟨_, rfl, e1 ▸ h1, (e2 (h1 ▸ hk)) ▸ h2⟩, hs⟩

theorem tok1_strS {l} {ts r ts' : Toks} (h : Tok1 .stringValue l ts r) (hs : SimS f g P ts ts') :
    ∃ l' r', Tok1 .stringValue l' ts' r' ∧ g l' = f l ∧ (l = [] ↔ l' = []) ∧ SimS f g P r r' := by
  obtain ⟨t, rfl, h1, h2⟩ := h
  cases hs with
  | cons e1 _ e2 _ hs => exact ⟨_, _, ⟨_, rfl, e1 ▸ h1, rfl⟩, h2 ▸ (e2 h1).1.symm, h2 ▸ (e2 h1).2, hs⟩

theorem notNext1_str {k l} {ts ts' : Toks} (h : NotNext1 k l ts) (hs : SimS f g P ts ts') (hk : k ≠ .stringValue := by decide) : NotNext1 k l ts' := by
  intro r hr
  obtain ⟨r', h', -⟩ := tok1_str hr hs.symm hk
  exact h _ h'

theorem notKind_str {k} {ts ts' : Toks} (h : NotKind k ts) (hs : SimS f g P ts ts') : NotKind k ts' := by
  rintro l r ⟨t, rfl, h1, h2⟩
  cases hs with
  | cons e1 _ _ _ hs => exact h _ _ ⟨_, rfl, e1.trans h1, rfl⟩

/-- `R` denotes the same things but for strings; `m` changes the strings in them. -/
def InvS (f g : Bytes → Bytes) (P : Prop) {α : Type} (m : (Bytes → Bytes) → α → α) (R : Toks → α → Toks → Prop) : Prop :=
  ∀ ts a r ts', R ts a r → SimS f g P ts ts' → ∃ a' r', R ts' a' r' ∧ m g a' = m f a ∧ SimS f g P r r'

/-- There are no strings in `R`. -/
def InvN (f g : Bytes → Bytes) (P : Prop) {α : Type} (R : Toks → α → Toks → Prop) : Prop :=
  ∀ ts a r ts', R ts a r → SimS f g P ts ts' → ∃ r', R ts' a r' ∧ SimS f g P r r'

theorem many_str {α : Type} {R : Toks → α → Toks → Prop} {m : (Bytes → Bytes) → α → α} {ts a r ts'} (h : Many R ts a r) (hR : InvS f g P m R) (hs : SimS f g P ts ts') :
    ∃ a' r', Many R ts' a' r' ∧ a'.map (m g) = a.map (m f) ∧ SimS f g P r r' := by
  induction h generalizing ts' with
  | nil => exact ⟨[], _, .nil _, rfl, hs⟩
  | cons h1 _ ih =>
    obtain ⟨a1, r1, h1', e1, s1⟩ := hR _ _ _ _ h1 hs
    obtain ⟨a2, r2, h2', e2, s2⟩ := ih s1
    exact ⟨_, r2, .cons h1' h2', by rw [List.map_cons, List.map_cons, e1, e2], s2⟩

theorem manyN_str {α : Type} {R : Toks → α → Toks → Prop} {ts a r ts'} (h : Many R ts a r) (hR : InvN f g P R) (hs : SimS f g P ts ts') :
    ∃ r', Many R ts' a r' ∧ SimS f g P r r' := by
  induction h generalizing ts' with
  | nil => exact ⟨_, .nil _, hs⟩
  | cons h1 _ ih =>
    obtain ⟨r1, h1', s1⟩ := hR _ _ _ _ h1 hs
    obtain ⟨r2, h2', s2⟩ := ih s1
    exact ⟨r2, .cons h1' h2', s2⟩

theorem sepBy_str {α : Type} {R : Toks → α → Toks → Prop} {l : Bytes} {ts a r ts'} (h : SepBy R l ts a r) (hR : InvN f g P R) (hs : SimS f g P ts ts') :
    ∃ r', SepBy R l ts' a r' ∧ SimS f g P r r' := by
  induction h generalizing ts' with
  | one h1 h2 =>
    obtain ⟨r1, h1', s1⟩ := hR _ _ _ _ h1 hs
    exact ⟨r1, .one h1' (notNext1_str h2 s1), s1⟩
  | cons h1 h2 _ ih =>
    obtain ⟨r1, h1', s1⟩ := hR _ _ _ _ h1 hs
    obtain ⟨r2, h2', s2⟩ := tok1_str h2 s1
    obtain ⟨r3, h3', s3⟩ := ih s2
    exact ⟨r3, .cons h1' h2' h3', s3⟩

theorem ne_nil_of_map {α : Type} {m m' : α → α} {a a' : List α} (h : a'.map m' = a.map m) (ha : a ≠ []) : a' ≠ [] := by
  rintro rfl
  exact ha (List.map_eq_nil_iff.1 h.symm)

theorem optPu_str {l} {ts r ts' : Toks} (h : OptPu l ts r) (hs : SimS f g P ts ts') : ∃ r', OptPu l ts' r' ∧ SimS f g P r r' := by
  rcases h with h | ⟨h, rfl⟩
  · obtain ⟨r', h', s⟩ := tok1_str h hs; exact ⟨r', .inl h', s⟩
  · exact ⟨ts', .inr ⟨notNext1_str h hs, rfl⟩, hs⟩

theorem bang_str : InvN f g P Bang := by
  intro ts b r ts' h hs
  rcases h with ⟨e, h⟩ | ⟨e, h, rfl⟩
  · obtain ⟨r', h', s⟩ := tok1_str h hs; exact ⟨r', .inl ⟨e, h'⟩, s⟩
  · exact ⟨ts', .inr ⟨e, notNext1_str h hs, rfl⟩, hs⟩

theorem optName_str : InvN f g P (OptTok .name) := by
  intro ts b r ts' h hs
  rcases h with h | ⟨e, h, rfl⟩
  · obtain ⟨r', h', s⟩ := tok1_str h hs; exact ⟨r', .inl h', s⟩
  · exact ⟨ts', .inr ⟨e, notKind_str h hs, rfl⟩, hs⟩

section
variable {pf : Bytes → Option Nat} {lax : Bool}

mutual
theorem typeRef_str' {ts a r ts'} : TypeRef lax ts a r → SimS f g P ts ts' → ∃ r', TypeRef lax ts' a r' ∧ SimS f g P r r'
  | .named h1 h2, hs => by
    obtain ⟨_, h1', s1⟩ := tok1_str h1 hs
    obtain ⟨_, h2', s2⟩ := bang_str _ _ _ _ h2 s1
    exact ⟨_, .named h1' h2', s2⟩
  | .list h1 h2 h3 h4, hs => by
    obtain ⟨_, h1', s1⟩ := tok1_str h1 hs
    obtain ⟨_, h2', s2⟩ := typeRef_str' h2 s1
    obtain ⟨_, h3', s3⟩ := tok1_str h3 s2
    obtain ⟨_, h4', s4⟩ := bang_str _ _ _ _ h4 s3
    exact ⟨_, .list h1' h2' h3' h4', s4⟩
  | .broken h0 h1 h2, hs => by
    obtain ⟨_, h1', s1⟩ := tok1_str h1 hs
    obtain ⟨_, h2', s2⟩ := typeStuck_str h2 s1
    exact ⟨_, .broken h0 h1' h2', s2⟩
theorem typeStuck_str {ts r ts'} : TypeStuck lax ts r → SimS f g P ts ts' → ∃ r', TypeStuck lax ts' r' ∧ SimS f g P r r'
  | .start h1 h2, hs => ⟨_, .start (notKind_str h1 hs) (notNext1_str h2 hs), hs⟩
  | .unclosed h1 h2 h3, hs => by
    obtain ⟨_, h1', s1⟩ := tok1_str h1 hs
    obtain ⟨_, h2', s2⟩ := typeRef_str' h2 s1
    exact ⟨_, .unclosed h1' h2' (notNext1_str h3 s2), s2⟩
end

theorem typeRef_str : InvN f g P (TypeRef lax) := fun _ _ _ _ h hs => typeRef_str' h hs

theorem namedType_str : InvN f g P (NamedType lax) := by
  intro ts a r ts' h hs
  cases h with
  | mk h1 h2 h3 =>
    obtain ⟨_, h1', s1⟩ := tok1_str h1 hs
    obtain ⟨_, h2', s2⟩ := bang_str _ _ _ _ h2 s1
    exact ⟨_, .mk h1' h2' h3, s2⟩

theorem memberType_str : InvN f g P (MemberType lax) := by
  intro ts a r ts' h hs
  obtain ⟨_, h1', s1⟩ := typeRef_str _ _ _ _ h.1 hs
  exact ⟨_, ⟨h1', h.2⟩, s1⟩

mutual
theorem val_str' {c ts a r ts'} : Val pf lax c ts a r → SimS f g P ts ts' → ∃ a' r', Val pf lax c ts' a' r' ∧ strVal g a' = strVal f a ∧ SimS f g P r r'
  | .var h0 h1 h2, hs => by
    obtain ⟨_, h1', s1⟩ := tok1_str h1 hs
    obtain ⟨_, h2', s2⟩ := tok1_str h2 s1
    exact ⟨_, _, .var h0 h1' h2', rfl, s2⟩
  | .int h h2 h3, hs => by obtain ⟨_, h', s⟩ := tok1_str h hs; exact ⟨_, _, .int h' h2 h3, rfl, s⟩
  | .float h h2, hs => by obtain ⟨_, h', s⟩ := tok1_str h hs; exact ⟨_, _, .float h' h2, rfl, s⟩
  | .str h, hs => by obtain ⟨l', _, h', e, -, s⟩ := tok1_strS h hs; exact ⟨_, _, .str h', by rw [strVal, strVal, e], s⟩
  | .tru h, hs => by obtain ⟨_, h', s⟩ := tok1_str h hs; exact ⟨_, _, .tru h', rfl, s⟩
  | .fls h, hs => by obtain ⟨_, h', s⟩ := tok1_str h hs; exact ⟨_, _, .fls h', rfl, s⟩
  | .null h, hs => by obtain ⟨_, h', s⟩ := tok1_str h hs; exact ⟨_, _, .null h', rfl, s⟩
  | .enum h h2 h3 h4, hs => by obtain ⟨_, h', s⟩ := tok1_str h hs; exact ⟨_, _, .enum h' h2 h3 h4, rfl, s⟩
  | .list h1 h2 h3, hs => by
    obtain ⟨_, h1', s1⟩ := tok1_str h1 hs
    obtain ⟨_, _, h2', e, s2⟩ := vals_str h2 s1
    obtain ⟨_, h3', s3⟩ := tok1_str h3 s2
    exact ⟨_, _, .list h1' h2' h3', by rw [strVal, strVal, e], s3⟩
  | .obj h1 h2 h3, hs => by
    obtain ⟨_, h1', s1⟩ := tok1_str h1 hs
    obtain ⟨_, _, h2', e, s2⟩ := flds_str h2 s1
    obtain ⟨_, h3', s3⟩ := tok1_str h3 s2
    exact ⟨_, _, .obj h1' h2' h3', by rw [strVal, strVal, e], s3⟩
theorem vals_str {c ts a r ts'} : Vals pf lax c ts a r → SimS f g P ts ts' → ∃ a' r', Vals pf lax c ts' a' r' ∧ strVals g a' = strVals f a ∧ SimS f g P r r'
  | .nil _, hs => ⟨_, _, .nil _, rfl, hs⟩
  | .cons h1 h2, hs => by
    obtain ⟨_, _, h1', e1, s1⟩ := val_str' h1 hs
    obtain ⟨_, _, h2', e2, s2⟩ := vals_str h2 s1
    exact ⟨_, _, .cons h1' h2', by rw [strVals, strVals, e1, e2], s2⟩
theorem flds_str {c ts a r ts'} : Flds pf lax c ts a r → SimS f g P ts ts' → ∃ a' r', Flds pf lax c ts' a' r' ∧ strFlds g a' = strFlds f a ∧ SimS f g P r r'
  | .nil _, hs => ⟨_, _, .nil _, rfl, hs⟩
  | .cons h1 h2 h3 h4, hs => by
    obtain ⟨_, h1', s1⟩ := tok1_str h1 hs
    obtain ⟨_, h2', s2⟩ := tok1_str h2 s1
    obtain ⟨_, _, h3', e3, s3⟩ := val_str' h3 s2
    obtain ⟨_, _, h4', e4, s4⟩ := flds_str h4 s3
    exact ⟨_, _, .cons h1' h2' h3' h4', by rw [strFlds, strFlds, e3, e4], s4⟩
end

theorem val_str {c} : InvS f g P strVal (Val pf lax c) := fun _ _ _ _ h hs => val_str' h hs

theorem default_str : InvS f g P (fun f => Option.map (strVal f)) (Default pf lax) := by
  intro ts a r ts' h hs
  cases h with
  | none h => exact ⟨_, _, .none (notNext1_str h hs), rfl, hs⟩
  | some h1 h2 =>
    obtain ⟨_, h1', s1⟩ := tok1_str h1 hs
    obtain ⟨_, _, h2', e2, s2⟩ := val_str _ _ _ _ h2 s1
    exact ⟨_, _, .some h1' h2', congrArg some e2, s2⟩

theorem arg_str {c} : InvS f g P strArg (Arg pf lax c) := by
  intro ts a r ts' h hs
  cases h with
  | mk h1 h2 h3 =>
    obtain ⟨_, h1', s1⟩ := tok1_str h1 hs
    obtain ⟨_, h2', s2⟩ := tok1_str h2 s1
    obtain ⟨_, _, h3', e3, s3⟩ := val_str _ _ _ _ h3 s2
    exact ⟨_, _, .mk h1' h2' h3', by simp only [strArg, e3], s3⟩

theorem args_str {c} : InvS f g P (fun f => List.map (strArg f)) (Args pf lax c) := by
  intro ts a r ts' h hs
  cases h with
  | none h => exact ⟨_, _, .none (notNext1_str h hs), rfl, hs⟩
  | some h1 h2 h3 h4 =>
    obtain ⟨_, h1', s1⟩ := tok1_str h1 hs
    obtain ⟨_, _, h2', e2, s2⟩ := many_str h2 arg_str s1
    obtain ⟨_, h3', s3⟩ := tok1_str h3 s2
    exact ⟨_, _, .some h1' h2' h3' (h4.imp (ne_nil_of_map e2) id), e2, s3⟩

theorem dir_str {c loc} : InvS f g P strDir (Dir pf lax c loc) := by
  intro ts a r ts' h hs
  cases h with
  | mk h1 h2 h3 =>
    obtain ⟨_, h1', s1⟩ := tok1_str h1 hs
    obtain ⟨_, h2', s2⟩ := tok1_str h2 s1
    obtain ⟨_, _, h3', e3, s3⟩ := args_str _ _ _ _ h3 s2
    exact ⟨_, _, .mk h1' h2' h3', by dsimp only at e3; simp only [strDir, e3], s3⟩

theorem dirs_str {c loc} : InvS f g P (fun f => List.map (strDir f)) (Dirs pf lax c loc) := by
  intro ts a r ts' h hs
  obtain ⟨_, _, h1', e1, s1⟩ := many_str h.1 dir_str hs
  exact ⟨_, _, ⟨h1', notNext1_str h.2 s1⟩, e1, s1⟩

theorem typeCond_str : InvN f g P (TypeCond lax) := by
  intro ts a r ts' h hs
  cases h with
  | mk h1 h2 =>
    obtain ⟨_, h1', s1⟩ := tok1_str h1 hs
    obtain ⟨_, h2', s2⟩ := namedType_str _ _ _ _ h2 s1
    exact ⟨_, .mk h1' h2', s2⟩

theorem optCond_str : InvN f g P (OptCond lax) := by
  intro ts a r ts' h hs
  cases h with
  | none h => exact ⟨_, .none (notNext1_str h hs), hs⟩
  | some h1 =>
    obtain ⟨_, h1', s1⟩ := typeCond_str _ _ _ _ h1 hs
    exact ⟨_, .some h1', s1⟩

theorem fieldName_str : InvN f g P FieldName := by
  intro ts a r ts' h hs
  cases h with
  | plain h1 h2 =>
    obtain ⟨_, h1', s1⟩ := tok1_str h1 hs
    exact ⟨_, .plain h1' (notNext1_str h2 s1), s1⟩
  | alias h1 h2 h3 =>
    obtain ⟨_, h1', s1⟩ := tok1_str h1 hs
    obtain ⟨_, h2', s2⟩ := tok1_str h2 s1
    obtain ⟨_, h3', s3⟩ := tok1_str h3 s2
    exact ⟨_, .alias h1' h2' h3', s3⟩

mutual
theorem sel_str {ts a r ts'} : Sel pf lax ts a r → SimS f g P ts ts' → ∃ a' r', Sel pf lax ts' a' r' ∧ strSel g a' = strSel f a ∧ SimS f g P r r'
  | .leaf h1 h2 h3 h4, hs => by
    obtain ⟨_, h1', s1⟩ := fieldName_str _ _ _ _ h1 hs
    obtain ⟨_, _, h2', e2, s2⟩ := args_str _ _ _ _ h2 s1
    obtain ⟨_, _, h3', e3, s3⟩ := dirs_str _ _ _ _ h3 s2
    dsimp only at e2 e3
    exact ⟨_, _, .leaf h1' h2' h3' (notNext1_str h4 s3), by rw [strSel, strSel, e2, e3]; rfl, s3⟩
  | .node h1 h2 h3 h4, hs => by
    obtain ⟨_, h1', s1⟩ := fieldName_str _ _ _ _ h1 hs
    obtain ⟨_, _, h2', e2, s2⟩ := args_str _ _ _ _ h2 s1
    obtain ⟨_, _, h3', e3, s3⟩ := dirs_str _ _ _ _ h3 s2
    obtain ⟨_, _, h4', e4, s4⟩ := selSet_str h4 s3
    dsimp only at e2 e3
    exact ⟨_, _, .node h1' h2' h3' h4', by rw [strSel, strSel, e2, e3, e4], s4⟩
  | .spread h1 h2 h3 h4, hs => by
    obtain ⟨_, h1', s1⟩ := tok1_str h1 hs
    obtain ⟨_, h2', s2⟩ := tok1_str h2 s1
    obtain ⟨_, _, h4', e4, s4⟩ := dirs_str _ _ _ _ h4 s2
    dsimp only at e4
    exact ⟨_, _, .spread h1' h2' h3 h4', by rw [strSel, strSel, e4], s4⟩
  | .inline h1 h2 h3 h4, hs => by
    obtain ⟨_, h1', s1⟩ := tok1_str h1 hs
    obtain ⟨_, h2', s2⟩ := optCond_str _ _ _ _ h2 s1
    obtain ⟨_, _, h3', e3, s3⟩ := dirs_str _ _ _ _ h3 s2
    obtain ⟨_, _, h4', e4, s4⟩ := selSet_str h4 s3
    dsimp only at e3
    exact ⟨_, _, .inline h1' h2' h3' h4', by rw [strSel, strSel, e3, e4], s4⟩
theorem sels_str {ts a r ts'} : Sels pf lax ts a r → SimS f g P ts ts' → ∃ a' r', Sels pf lax ts' a' r' ∧ strSels g a' = strSels f a ∧ SimS f g P r r'
  | .one h1, hs => by
    obtain ⟨_, _, h1', e1, s1⟩ := sel_str h1 hs
    exact ⟨_, _, .one h1', by rw [strSels, strSels, e1]; rfl, s1⟩
  | .cons h1 h2, hs => by
    obtain ⟨_, _, h1', e1, s1⟩ := sel_str h1 hs
    obtain ⟨_, _, h2', e2, s2⟩ := sels_str h2 s1
    exact ⟨_, _, .cons h1' h2', by rw [strSels, strSels, e1, e2], s2⟩
theorem selSet_str {ts a r ts'} : SelSet pf lax ts a r → SimS f g P ts ts' → ∃ a' r', SelSet pf lax ts' a' r' ∧ strSels g a' = strSels f a ∧ SimS f g P r r'
  | .mk h1 h2 h3, hs => by
    obtain ⟨_, h1', s1⟩ := tok1_str h1 hs
    obtain ⟨_, _, h2', e2, s2⟩ := sels_str h2 s1
    obtain ⟨_, h3', s3⟩ := tok1_str h3 s2
    exact ⟨_, _, .mk h1' h2' h3', e2, s3⟩
end

theorem varDefn_str : InvS f g P strVar (VarDefn pf lax) := by
  intro ts a r ts' h hs
  cases h with
  | mk h1 h2 h3 h4 h5 =>
    obtain ⟨_, h1', s1⟩ := tok1_str h1 hs
    obtain ⟨_, h2', s2⟩ := tok1_str h2 s1
    obtain ⟨_, h3', s3⟩ := tok1_str h3 s2
    obtain ⟨_, h4', s4⟩ := typeRef_str _ _ _ _ h4 s3
    obtain ⟨_, _, h5', e5, s5⟩ := default_str _ _ _ _ h5 s4
    dsimp only at e5
    exact ⟨_, _, .mk h1' h2' h3' h4' h5', by simp only [strVar, e5], s5⟩

theorem varDefns_str : InvS f g P (fun f => List.map (strVar f)) (VarDefns pf lax) := by
  intro ts a r ts' h hs
  cases h with
  | none h => exact ⟨_, _, .none (notNext1_str h hs), rfl, hs⟩
  | some h1 h2 h3 h4 =>
    obtain ⟨_, h1', s1⟩ := tok1_str h1 hs
    obtain ⟨_, _, h2', e2, s2⟩ := many_str h2 varDefn_str s1
    obtain ⟨_, h4', s4⟩ := tok1_str h4 s2
    exact ⟨_, _, .some h1' h2' (ne_nil_of_map e2 h3) h4', e2, s4⟩

theorem opType_str : InvN f g P OpType := by
  intro ts a r ts' h hs
  cases h with
  | query h => obtain ⟨_, h', s⟩ := tok1_str h hs; exact ⟨_, .query h', s⟩
  | mutation h => obtain ⟨_, h', s⟩ := tok1_str h hs; exact ⟨_, .mutation h', s⟩
  | subscription h => obtain ⟨_, h', s⟩ := tok1_str h hs; exact ⟨_, .subscription h', s⟩

theorem opDefn_str : InvS f g P strOp (OpDefn pf lax) := by
  intro ts a r ts' h hs
  cases h with
  | shorthand h =>
    obtain ⟨_, _, h', e, s⟩ := selSet_str h hs
    exact ⟨_, _, .shorthand h', by simp only [strOp, e, List.map_nil], s⟩
  | full h1 h2 h3 h4 h5 =>
    obtain ⟨_, h1', s1⟩ := opType_str _ _ _ _ h1 hs
    obtain ⟨_, h2', s2⟩ := optName_str _ _ _ _ h2 s1
    obtain ⟨_, _, h3', e3, s3⟩ := varDefns_str _ _ _ _ h3 s2
    obtain ⟨_, _, h4', e4, s4⟩ := dirs_str _ _ _ _ h4 s3
    obtain ⟨_, _, h5', e5, s5⟩ := selSet_str h5 s4
    dsimp only at e3 e4
    exact ⟨_, _, .full h1' h2' h3' h4' h5', by simp only [strOp, e3, e4, e5], s5⟩

theorem fragDefn_str : InvS f g P strFrag (FragDefn pf lax) := by
  intro ts a r ts' h hs
  cases h with
  | mk h1 h2 h3 h4 h5 h6 =>
    obtain ⟨_, h1', s1⟩ := tok1_str h1 hs
    obtain ⟨_, h2', s2⟩ := tok1_str h2 s1
    obtain ⟨_, h4', s4⟩ := typeCond_str _ _ _ _ h4 s2
    obtain ⟨_, _, h5', e5, s5⟩ := dirs_str _ _ _ _ h5 s4
    obtain ⟨_, _, h6', e6, s6⟩ := selSet_str h6 s5
    dsimp only at e5
    exact ⟨_, _, .mk h1' h2' h3 h4' h5' h6', by simp only [strFrag, e5, e6], s6⟩

theorem opTypeDefn_str : InvN f g P (OpTypeDefn lax) := by
  intro ts a r ts' h hs
  cases h with
  | mk h1 h2 h3 =>
    obtain ⟨_, h1', s1⟩ := opType_str _ _ _ _ h1 hs
    obtain ⟨_, h2', s2⟩ := tok1_str h2 s1
    obtain ⟨_, h3', s3⟩ := namedType_str _ _ _ _ h3 s2
    exact ⟨_, .mk h1' h2' h3', s3⟩

theorem opTypeDefns_str : InvN f g P (OpTypeDefns lax) := by
  intro ts a r ts' h hs
  cases h with
  | mk h1 h2 h3 h4 =>
    obtain ⟨_, h1', s1⟩ := tok1_str h1 hs
    obtain ⟨_, h2', s2⟩ := manyN_str h2 opTypeDefn_str s1
    obtain ⟨_, h4', s4⟩ := tok1_str h4 s2
    exact ⟨_, .mk h1' h2' h3 h4', s4⟩

theorem schemaDefn_str : InvS f g P strSchema (SchemaDefn pf lax) := by
  intro ts a r ts' h hs
  cases h with
  | mk h1 h2 h3 =>
    obtain ⟨_, h1', s1⟩ := tok1_str h1 hs
    obtain ⟨_, _, h2', e2, s2⟩ := dirs_str _ _ _ _ h2 s1
    obtain ⟨_, h3', s3⟩ := opTypeDefns_str _ _ _ _ h3 s2
    dsimp only at e2
    exact ⟨_, _, .mk h1' h2' h3', by simp only [strSchema, e2], s3⟩

theorem schemaExtn_str : InvS f g P strSchema (SchemaExtn pf lax) := by
  intro ts a r ts' h hs
  cases h with
  | ops h1 h2 h3 =>
    obtain ⟨_, h1', s1⟩ := tok1_str h1 hs
    obtain ⟨_, _, h2', e2, s2⟩ := dirs_str _ _ _ _ h2 s1
    obtain ⟨_, h3', s3⟩ := opTypeDefns_str _ _ _ _ h3 s2
    dsimp only at e2
    exact ⟨_, _, .ops h1' h2' h3', by simp only [strSchema, e2], s3⟩
  | dirs h1 h2 h3 h4 =>
    obtain ⟨_, h1', s1⟩ := tok1_str h1 hs
    obtain ⟨_, _, h2', e2, s2⟩ := dirs_str _ _ _ _ h2 s1
    dsimp only at e2
    exact ⟨_, _, .dirs h1' h2' (ne_nil_of_map e2 h3) (notNext1_str h4 s2), by simp only [strSchema, e2], s2⟩

/-- A description; there may be none. -/
theorem desc_str (h0 : f [] = g []) {ts l r ts'} (h : OptTok .stringValue ts l r) (hs : SimS f g P ts ts') :
    ∃ l' r', OptTok .stringValue ts' l' r' ∧ g l' = f l ∧ SimS f g P r r' := by
  rcases h with h | ⟨e, h, rfl⟩
  · obtain ⟨l', r', h', e, -, s⟩ := tok1_strS h hs; exact ⟨l', r', .inl h', e, s⟩
  · exact ⟨[], ts', .inr ⟨rfl, notKind_str h hs, rfl⟩, by rw [e, h0], hs⟩

theorem inputValue_str (h0 : f [] = g []) {loc} : InvS f g P strInput (InputValue pf lax loc) := by
  intro ts a r ts' h hs
  cases h with
  | mk h1 h2 h3 h4 h5 h6 =>
    obtain ⟨_, _, h1', e1, s1⟩ := desc_str h0 h1 hs
    obtain ⟨_, h2', s2⟩ := tok1_str h2 s1
    obtain ⟨_, h3', s3⟩ := tok1_str h3 s2
    obtain ⟨_, h4', s4⟩ := typeRef_str _ _ _ _ h4 s3
    obtain ⟨_, _, h5', e5, s5⟩ := default_str _ _ _ _ h5 s4
    obtain ⟨_, _, h6', e6, s6⟩ := dirs_str _ _ _ _ h6 s5
    dsimp only at e5 e6
    exact ⟨_, _, .mk h1' h2' h3' h4' h5' h6', by simp only [strInput, e1, e5, e6], s6⟩

theorem argsDef_str (h0 : f [] = g []) : InvS f g P (fun f => List.map (strInput f)) (ArgsDef pf lax) := by
  intro ts a r ts' h hs
  cases h with
  | none h => exact ⟨_, _, .none (notNext1_str h hs), rfl, hs⟩
  | some h1 h2 h3 h4 =>
    obtain ⟨_, h1', s1⟩ := tok1_str h1 hs
    obtain ⟨_, _, h2', e2, s2⟩ := many_str h2 (inputValue_str h0) s1
    obtain ⟨_, h4', s4⟩ := tok1_str h4 s2
    exact ⟨_, _, .some h1' h2' (ne_nil_of_map e2 h3) h4', e2, s4⟩

theorem locName_str : InvN f g P LocName := fun _ _ _ _ h hs => tok1_str h hs

theorem dirDefn_str (h0 : f [] = g []) {desc desc' ts a r ts'} (h : DirDefn pf lax desc ts a r) (hs : SimS f g P ts ts') (hd : g desc' = f desc) :
    ∃ a' r', DirDefn pf lax desc' ts' a' r' ∧ strDirective g a' = strDirective f a ∧ SimS f g P r r' := by
  cases h with
  | mk h1 h2 h3 h4 h5 h6 h7 =>
    obtain ⟨_, h1', s1⟩ := tok1_str h1 hs
    obtain ⟨_, h2', s2⟩ := tok1_str h2 s1
    obtain ⟨_, h3', s3⟩ := tok1_str h3 s2
    obtain ⟨_, _, h4', e4, s4⟩ := argsDef_str h0 _ _ _ _ h4 s3
    obtain ⟨_, h5', s5⟩ := tok1_str h5 s4
    obtain ⟨_, h6', s6⟩ := optPu_str h6 s5
    obtain ⟨_, h7', s7⟩ := sepBy_str h7 locName_str s6
    dsimp only at e4
    exact ⟨_, _, .mk h1' h2' h3' h4' h5' h6' h7', by simp only [strDirective, e4, hd], s7⟩

theorem implements_str : InvN f g P (Implements lax) := by
  intro ts a r ts' h hs
  cases h with
  | none h => exact ⟨_, .none (notNext1_str h hs), hs⟩
  | some h1 h2 h3 =>
    obtain ⟨_, h1', s1⟩ := tok1_str h1 hs
    obtain ⟨_, h2', s2⟩ := optPu_str h2 s1
    obtain ⟨_, h3', s3⟩ := sepBy_str h3 memberType_str s2
    exact ⟨_, .some h1' h2' h3', s3⟩

theorem unionMembers_str : InvN f g P (UnionMembers lax) := by
  intro ts a r ts' h hs
  cases h with
  | none h => exact ⟨_, .none (notNext1_str h hs), hs⟩
  | some h1 h2 h3 =>
    obtain ⟨_, h1', s1⟩ := tok1_str h1 hs
    obtain ⟨_, h2', s2⟩ := optPu_str h2 s1
    obtain ⟨_, h3', s3⟩ := sepBy_str h3 memberType_str s2
    exact ⟨_, .some h1' h2' h3', s3⟩

theorem fieldDefn_str (h0 : f [] = g []) : InvS f g P strField (FieldDefn pf lax) := by
  intro ts a r ts' h hs
  cases h with
  | mk h1 h2 h3 h4 h5 h6 =>
    obtain ⟨_, _, h1', e1, s1⟩ := desc_str h0 h1 hs
    obtain ⟨_, h2', s2⟩ := tok1_str h2 s1
    obtain ⟨_, _, h3', e3, s3⟩ := argsDef_str h0 _ _ _ _ h3 s2
    obtain ⟨_, h4', s4⟩ := tok1_str h4 s3
    obtain ⟨_, h5', s5⟩ := typeRef_str _ _ _ _ h5 s4
    obtain ⟨_, _, h6', e6, s6⟩ := dirs_str _ _ _ _ h6 s5
    dsimp only at e3 e6
    exact ⟨_, _, .mk h1' h2' h3' h4' h5' h6', by simp only [strField, e1, e3, e6], s6⟩

theorem block_str {α : Type} {R : Toks → α → Toks → Prop} {m : (Bytes → Bytes) → α → α} {ts a r ts'} (h : Block R ts a r) (hR : InvS f g P m R) (hs : SimS f g P ts ts') :
    ∃ a' r', Block R ts' a' r' ∧ a'.map (m g) = a.map (m f) ∧ SimS f g P r r' := by
  cases h with
  | none h => exact ⟨_, _, .none (notNext1_str h hs), rfl, hs⟩
  | some h1 h2 h3 h4 =>
    obtain ⟨_, h1', s1⟩ := tok1_str h1 hs
    obtain ⟨_, _, h2', e2, s2⟩ := many_str h2 hR s1
    obtain ⟨_, h4', s4⟩ := tok1_str h4 s2
    exact ⟨_, _, .some h1' h2' (ne_nil_of_map e2 h3) h4', e2, s4⟩

theorem enumValDefn_str (h0 : f [] = g []) : InvS f g P strEnum (EnumValDefn pf lax) := by
  intro ts a r ts' h hs
  cases h with
  | mk h1 h2 h3 h4 h5 h6 =>
    obtain ⟨_, _, h1', e1, s1⟩ := desc_str h0 h1 hs
    obtain ⟨_, h2', s2⟩ := tok1_str h2 s1
    obtain ⟨_, _, h6', e6, s6⟩ := dirs_str _ _ _ _ h6 s2
    dsimp only at e6
    exact ⟨_, _, .mk h1' h2' h3 h4 h5 h6', by simp only [strEnum, e1, e6], s6⟩

theorem typeDefn_str (h0 : f [] = g []) {desc desc' ts a r ts'} (h : TypeDefn pf lax desc ts a r) (hs : SimS f g P ts ts') (hd : g desc' = f desc) :
    ∃ a' r', TypeDefn pf lax desc' ts' a' r' ∧ strType g a' = strType f a ∧ SimS f g P r r' := by
  cases h with
  | scalar h1 h2 h3 =>
    obtain ⟨_, h1', s1⟩ := tok1_str h1 hs
    obtain ⟨_, h2', s2⟩ := tok1_str h2 s1
    obtain ⟨_, _, h3', e3, s3⟩ := dirs_str _ _ _ _ h3 s2
    dsimp only at e3
    exact ⟨_, _, .scalar h1' h2' h3', by simp only [strType, hd, e3, List.map_nil], s3⟩
  | object h1 h2 h3 h4 h5 =>
    obtain ⟨_, h1', s1⟩ := tok1_str h1 hs
    obtain ⟨_, h2', s2⟩ := tok1_str h2 s1
    obtain ⟨_, h3', s3⟩ := implements_str _ _ _ _ h3 s2
    obtain ⟨_, _, h4', e4, s4⟩ := dirs_str _ _ _ _ h4 s3
    obtain ⟨_, _, h5', e5, s5⟩ := block_str h5 (fieldDefn_str h0) s4
    dsimp only at e4
    exact ⟨_, _, .object h1' h2' h3' h4' h5', by simp only [strType, hd, e4, e5, List.map_nil], s5⟩
  | interface h1 h2 h3 h4 =>
    obtain ⟨_, h1', s1⟩ := tok1_str h1 hs
    obtain ⟨_, h2', s2⟩ := tok1_str h2 s1
    obtain ⟨_, _, h3', e3, s3⟩ := dirs_str _ _ _ _ h3 s2
    obtain ⟨_, _, h4', e4, s4⟩ := block_str h4 (fieldDefn_str h0) s3
    dsimp only at e3
    exact ⟨_, _, .interface h1' h2' h3' h4', by simp only [strType, hd, e3, e4, List.map_nil], s4⟩
  | union h1 h2 h3 h4 =>
    obtain ⟨_, h1', s1⟩ := tok1_str h1 hs
    obtain ⟨_, h2', s2⟩ := tok1_str h2 s1
    obtain ⟨_, _, h3', e3, s3⟩ := dirs_str _ _ _ _ h3 s2
    obtain ⟨_, h4', s4⟩ := unionMembers_str _ _ _ _ h4 s3
    dsimp only at e3
    exact ⟨_, _, .union h1' h2' h3' h4', by simp only [strType, hd, e3, List.map_nil], s4⟩
  | enum h1 h2 h3 h4 =>
    obtain ⟨_, h1', s1⟩ := tok1_str h1 hs
    obtain ⟨_, h2', s2⟩ := tok1_str h2 s1
    obtain ⟨_, _, h3', e3, s3⟩ := dirs_str _ _ _ _ h3 s2
    obtain ⟨_, _, h4', e4, s4⟩ := block_str h4 (enumValDefn_str h0) s3
    dsimp only at e3
    exact ⟨_, _, .enum h1' h2' h3' h4', by simp only [strType, hd, e3, e4, List.map_nil], s4⟩
  | input h1 h2 h3 h4 =>
    obtain ⟨_, h1', s1⟩ := tok1_str h1 hs
    obtain ⟨_, h2', s2⟩ := tok1_str h2 s1
    obtain ⟨_, _, h3', e3, s3⟩ := dirs_str _ _ _ _ h3 s2
    obtain ⟨_, _, h4', e4, s4⟩ := block_str h4 (inputValue_str h0) s3
    dsimp only at e3
    exact ⟨_, _, .input h1' h2' h3' h4', by simp only [strType, hd, e3, e4, List.map_nil], s4⟩

theorem nonEmpty_str {t t' : TypeDef} (h : strType g t' = strType f t) (hn : TypeDef.nonEmpty t) : TypeDef.nonEmpty t' := by
  have e1 := congrArg TypeDef.ifaces h
  have e2 := congrArg TypeDef.dirs h
  have e3 := congrArg TypeDef.fields h
  have e4 := congrArg TypeDef.members h
  have e5 := congrArg TypeDef.values h
  have e6 := congrArg TypeDef.inputs h
  simp only [strType] at e1 e2 e3 e4 e5 e6
  rcases hn with h | h | h | h | h | h
  · exact .inl (e1 ▸ h)
  · exact .inr (.inl (ne_nil_of_map e2 h))
  · exact .inr (.inr (.inl (ne_nil_of_map e3 h)))
  · exact .inr (.inr (.inr (.inl (e4 ▸ h))))
  · exact .inr (.inr (.inr (.inr (.inl (ne_nil_of_map e5 h)))))
  · exact .inr (.inr (.inr (.inr (.inr (ne_nil_of_map e6 h)))))

theorem defn_str (h0 : f [] = g []) : InvS f g P strBody (Defn pf lax) := by
  intro ts a r ts' h hs
  cases h with
  | op h => obtain ⟨_, _, h', e, s⟩ := opDefn_str _ _ _ _ h hs; exact ⟨_, _, .op h', by rw [strBody, strBody, e], s⟩
  | frag h => obtain ⟨_, _, h', e, s⟩ := fragDefn_str _ _ _ _ h hs; exact ⟨_, _, .frag h', by rw [strBody, strBody, e], s⟩
  | schema h => obtain ⟨_, _, h', e, s⟩ := schemaDefn_str _ _ _ _ h hs; exact ⟨_, _, .schema h', by rw [strBody, strBody, e], s⟩
  | schemaDesc hl h1 h2 =>
    obtain ⟨_, _, h1', -, e1, s1⟩ := tok1_strS h1 hs
    obtain ⟨_, _, h2', e, s2⟩ := schemaDefn_str _ _ _ _ h2 s1
    cases e1.1 rfl
    exact ⟨_, _, .schemaDesc hl h1' h2', by rw [strBody, strBody, e], s2⟩
  | type h1 h2 =>
    obtain ⟨_, _, h1', e1, s1⟩ := desc_str h0 h1 hs
    obtain ⟨_, _, h2', e2, s2⟩ := typeDefn_str h0 h2 s1 e1
    exact ⟨_, _, .type h1' h2', by rw [strBody, strBody, e2], s2⟩
  | directive h1 h2 =>
    obtain ⟨_, _, h1', e1, s1⟩ := desc_str h0 h1 hs
    obtain ⟨_, _, h2', e2, s2⟩ := dirDefn_str h0 h2 s1 e1
    exact ⟨_, _, .directive h1' h2', by rw [strBody, strBody, e2], s2⟩
  | schemaExt h1 h2 =>
    obtain ⟨_, h1', s1⟩ := tok1_str h1 hs
    obtain ⟨_, _, h2', e2, s2⟩ := schemaExtn_str _ _ _ _ h2 s1
    exact ⟨_, _, .schemaExt h1' h2', by rw [strBody, strBody, e2], s2⟩
  | typeExt h1 h2 h3 =>
    obtain ⟨_, h1', s1⟩ := tok1_str h1 hs
    obtain ⟨_, _, h2', e2, s2⟩ := typeDefn_str h0 h2 s1 h0.symm
    exact ⟨_, _, .typeExt h1' h2' (h3.imp (nonEmpty_str e2) id), by rw [strBody, strBody, e2], s2⟩

theorem defs_str (h0 : f [] = g []) {ts ts' : Toks} {ds : List Definition} {rest : Toks} (h : Many (LocDefn pf lax) ts ds rest)
    (hs : SimS f g P ts ts') : ∃ ds' rest', Many (LocDefn pf lax) ts' ds' rest' ∧ SimS f g P rest rest' ∧
      ds'.map (fun d => strBody g d.body) = ds.map (fun d => strBody f d.body) ∧ (P → ds'.map (·.loc) = ds.map (·.loc)) := by
  induction h generalizing ts' with
  | nil => exact ⟨[], ts', .nil _, hs, rfl, fun _ => rfl⟩
  | cons h1 _ ih =>
    cases h1 with
    | mk h1 =>
      obtain ⟨_, r', h1', e1, s1⟩ := defn_str h0 _ _ _ _ h1 hs
      obtain ⟨ds', r2, h2', s2, e, el⟩ := ih s1
      cases hs with
      | cons _ _ _ hp _ =>
        refine ⟨_, r2, .cons (.mk h1') h2', s2, ?_, fun p => ?_⟩
        · simp only [List.map_cons, e, e1]
        · simp only [List.map_cons, el p, (hp p).1, (hp p).2]

/-- Documents: the same but for strings. -/
theorem doc_str (h0 : f [] = g []) {ts ts' : Toks} {ds : List Definition} (h : Doc pf lax ts ds) (hs : SimS f g P ts ts') :
    ∃ ds', Doc pf lax ts' ds' ∧ ds'.map (fun d => strBody g d.body) = ds.map (fun d => strBody f d.body) ∧ (P → ds'.map (·.loc) = ds.map (·.loc)) := by
  obtain ⟨e, r, h1, h2, h3⟩ := h
  obtain ⟨ds', r', h2', s, eb, el⟩ := defs_str h0 h2 hs
  cases s with
  | cons hk _ _ _ _ =>
    refine ⟨ds', ⟨_, _, ?_, h2', hk ▸ h3⟩, eb, el⟩
    rintro rfl
    exact h1 (List.map_eq_nil_iff.1 eb.symm)

end

end

/-! ### Nothing changed -/

mutual
theorem strVal_id : ∀ v : Value, strVal id v = v
  | .str s => rfl
  | .list vs => by rw [strVal, strVals_id vs]
  | .obj fs => by rw [strVal, strFlds_id fs]
  | .var n => rfl
  | .int i => rfl
  | .float b => rfl
  | .bool b => rfl
  | .null => rfl
  | .enum n => rfl
theorem strVals_id : ∀ v : List Value, strVals id v = v
  | [] => rfl
  | v :: vs => by rw [strVals, strVal_id v, strVals_id vs]
theorem strFlds_id : ∀ v : List (Bytes × Value), strFlds id v = v
  | [] => rfl
  | (n, v) :: vs => by rw [strFlds, strVal_id v, strFlds_id vs]
end

theorem map_id_of {α : Type} {m : α → α} (h : ∀ a, m a = a) (l : List α) : l.map m = l := by
  have : m = id := funext h
  rw [this, List.map_id]

theorem strArg_id (a : Argument) : strArg id a = a := by rw [strArg, strVal_id]
theorem strDir_id (d : Directive) : strDir id d = d := by rw [strDir, map_id_of strArg_id]

mutual
theorem strSel_id : ∀ s : Selection, strSel id s = s
  | .field a n args dirs sels => by rw [strSel, map_id_of strArg_id, map_id_of strDir_id, strSels_id sels]
  | .spread n dirs => by rw [strSel, map_id_of strDir_id]
  | .inline c dirs sels => by rw [strSel, map_id_of strDir_id, strSels_id sels]
theorem strSels_id : ∀ s : List Selection, strSels id s = s
  | [] => rfl
  | s :: ss => by rw [strSels, strSel_id s, strSels_id ss]
end

theorem optVal_id (d : Option Value) : d.map (strVal id) = d := by cases d <;> simp [strVal_id]
theorem strVar_id (d : VarDef) : strVar id d = d := by rw [strVar, optVal_id]
theorem strOp_id (d : OpDef) : strOp id d = d := by rw [strOp, map_id_of strVar_id, map_id_of strDir_id, strSels_id]
theorem strFrag_id (d : FragDef) : strFrag id d = d := by rw [strFrag, map_id_of strDir_id, strSels_id]
theorem strSchema_id (d : SchemaDef) : strSchema id d = d := by rw [strSchema, map_id_of strDir_id]
theorem strInput_id (d : InputVal) : strInput id d = d := by rw [strInput, map_id_of strDir_id, optVal_id]; rfl
theorem strField_id (d : FieldDef) : strField id d = d := by rw [strField, map_id_of strDir_id, map_id_of strInput_id]; rfl
theorem strEnum_id (d : EnumVal) : strEnum id d = d := by rw [strEnum, map_id_of strDir_id]; rfl
theorem strType_id (d : TypeDef) : strType id d = d := by
  rw [strType, map_id_of strDir_id, map_id_of strField_id, map_id_of strEnum_id, map_id_of strInput_id]; rfl
theorem strDirective_id (d : DirDef) : strDirective id d = d := by rw [strDirective, map_id_of strInput_id]; rfl
theorem strBody_id (b : Body) : strBody id b = b := by
  cases b <;> simp only [strBody, strOp_id, strFrag_id, strSchema_id, strType_id, strDirective_id]
theorem strDef_id (d : Definition) : strDef id d = d := by rw [strDef, strBody_id]

end GQL
