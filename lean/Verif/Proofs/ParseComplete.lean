/-
Everything derivable in the lax grammar is accepted by the parser, with the same result.
-/
import Verif.Proofs.ParseSound
import Verif.Proofs.ParseEats

namespace GQL
open Spec

theorem mustConsume0_tok {k : TokenKind} {l : Bytes} {ts r : Toks} (h : Tok1 k l ts r) (hk : k ≠ .eof := by decide) :
    ∃ t : Token, t.lit = l ∧ mustConsume0 k ts = .ok t r := by
  obtain ⟨t, rfl, h1, h2⟩ := h
  exact ⟨t, h2, mustConsume0_eq h1 hk⟩

theorem mustConsume1_tok {k : TokenKind} {l : Bytes} {ts r : Toks} (h : Tok1 k l ts r) (hk : k ≠ .eof := by decide) :
    ∃ t : Token, mustConsume1 k l ts = .ok t r := by
  obtain ⟨t, rfl, h1, h2⟩ := h
  exact ⟨t, mustConsume1_eq h1 h2 hk⟩

theorem consume0_tok {k : TokenKind} {l : Bytes} {ts r : Toks} (h : Tok1 k l ts r) (hk : k ≠ .eof := by decide) :
    ∃ t : Token, t.lit = l ∧ consume0 k ts = .ok (some t) r := by
  obtain ⟨t, rfl, h1, h2⟩ := h
  exact ⟨t, h2, consume0_some h1 hk⟩

theorem consume0_optTok {k : TokenKind} {l : Bytes} {ts r : Toks} (h : OptTok k ts l r) (hk : k ≠ .eof := by decide) :
    ∃ o : Option Token, (o.map (·.lit)).getD [] = l ∧ consume0 k ts = .ok o r := by
  rcases h with h | ⟨rfl, h, rfl⟩
  · obtain ⟨t, h1, h2⟩ := consume0_tok h hk; exact ⟨some t, h1, h2⟩
  · exact ⟨none, rfl, consume0_none h hk⟩

theorem consumen_none {k : TokenKind} {ls : List Bytes} {ts : Toks} (h : ∀ l ∈ ls, NotNext1 k l ts) (hl : ls ≠ [])
    (hk : k ≠ .eof := by decide) : consumen k ls ts = .ok none ts :=
  (consumen_ok hk hl).2 (.inr ⟨rfl, h, rfl⟩)

theorem bang_skip {b : Bool} {ts r : Toks} (h : Bang ts b r) : skip1 .punctuator b!"!" ts = .ok b r :=
  (skip1_ok (by decide)).2 h

theorem optPu_skip {l : Bytes} {ts r : Toks} (h : OptPu l ts r) : ∃ b, skip1 .punctuator l ts = .ok b r := by
  rcases h with h | ⟨h, rfl⟩
  · exact ⟨true, skip1_true h⟩
  · exact ⟨false, skip1_false h⟩

theorem bskip_complete {k l N} (hk : k ≠ .eof := by decide) : Complete N (skip1 k l) (BSkip k l) :=
  fun _ _ _ _ h => (bskip_iff hk).2 h
theorem bnotPeek_complete {k l N} (hk : k ≠ .eof := by decide) : Complete N (notP (peek1 k l)) (BNotPeek k l) :=
  fun _ _ _ _ h => (bnotPeek_iff hk).2 h
theorem bpeek_complete {k l N} (hk : k ≠ .eof := by decide) : Complete N (peek1 k l) (BPeek k l) :=
  fun _ _ _ _ h => (bpeek_iff hk).2 h
theorem bpeekEof_complete {k l N} (hk : k ≠ .eof := by decide) :
    Complete N (orP (peek1 k l) (peek0 .eof)) (BPeekEof k l) :=
  fun _ _ _ _ h => (bpeekEof_iff hk).2 h
theorem bsep_complete {k l N} (hk : k ≠ .eof := by decide) : Complete N (notP (skip1 k l)) (BSep k l) :=
  fun _ _ _ _ h => (bsep_iff hk).2 h

section
variable {pf : Bytes → Option Nat}

theorem val_notNext {lax c : Bool} {ts v r} (h : Val pf lax c ts v r) {l : Bytes}
    (hl : l ≠ b!"$" ∧ l ≠ b!"[" ∧ l ≠ b!"{") : NotNext1 .punctuator l ts := by
  cases h with
  | var _ h _ => exact tok1_ne h (.inr hl.1.symm)
  | int h => exact tok1_ne h (.inl (by decide))
  | float h => exact tok1_ne h (.inl (by decide))
  | str h => exact tok1_ne h (.inl (by decide))
  | tru h => exact tok1_ne h (.inl (by decide))
  | fls h => exact tok1_ne h (.inl (by decide))
  | null h => exact tok1_ne h (.inl (by decide))
  | enum h => exact tok1_ne h (.inl (by decide))
  | list h _ _ => exact tok1_ne h (.inr hl.2.1.symm)
  | obj h _ _ => exact tok1_ne h (.inr hl.2.2.symm)

theorem fld_complete {lax c : Bool} {p : P Value} {N : Nat} (h : Complete N p (Val pf lax c)) :
    Complete N (do
        let t ← mustConsume0 .name
        let _ ← mustConsume1 .punctuator b!":"
        let v ← p
        return (t.lit, v)) (Fld pf lax c) := by
  rintro ts ⟨nm, v⟩ rest hl ⟨r1, r2, h1, h2, h3⟩
  obtain ⟨t, e, h4⟩ := mustConsume0_tok h1
  have l1 := tok1_length h1; have l2 := tok1_length h2
  rw [bind_eq h4, mustConsume1_step h2, bind_eq (h _ _ _ (by omega) h3), e]
  rfl

theorem parseValue_complete (n : Nat) (c : Bool) : Complete n (parseValue pf n) (Val pf true c) := by
  induction n with
  | zero => intro ts v rest h; omega
  | succ n ih =>
    intro ts v rest hl h
    rw [parseValue]
    cases h with
    | var _ h1 h2 =>
      obtain ⟨t, e, h4⟩ := mustConsume0_tok h2
      rw [bind_eq (skip1_true h1), if_pos rfl, bind_eq h4, e]
      rfl
    | int h1 h2 h3 =>
      obtain ⟨t, e, h4⟩ := consume0_tok h1
      rw [bind_eq (skip1_false (tok1_ne h1 (.inl (by decide)))), if_neg (by decide), bind_eq h4]
      simp only
      rw [e, atoi_iff.2 ⟨h2, h3⟩]
      rfl
    | float h1 h2 =>
      obtain ⟨t, e, h4⟩ := consume0_tok h1
      rw [bind_eq (skip1_false (tok1_ne h1 (.inl (by decide)))), if_neg (by decide),
        bind_eq (consume0_none (tok1_kind h1 (by decide)))]
      simp only
      rw [bind_eq h4]
      simp only
      rw [e, h2]
      rfl
    | str h1 =>
      obtain ⟨t, e, h4⟩ := consume0_tok h1
      rw [bind_eq (skip1_false (tok1_ne h1 (.inl (by decide)))), if_neg (by decide),
        bind_eq (consume0_none (tok1_kind h1 (by decide)))]
      simp only
      rw [bind_eq (consume0_none (tok1_kind h1 (by decide)))]
      simp only
      rw [bind_eq h4]
      simp only
      rw [e]
      rfl
    | tru h1 =>
      have h4 : ∃ t : Token, t.lit = b!"true" ∧ consumen .name [b!"true", b!"false"] ts = .ok (some t) rest := by
        obtain ⟨t, rfl, h5, h6⟩ := h1
        exact ⟨t, h6, (consumen_ok (by decide) (by simp)).2 (.inl ⟨t, rfl, rfl, h5, by simp [h6]⟩)⟩
      obtain ⟨t, e, h4⟩ := h4
      rw [bind_eq (skip1_false (tok1_ne h1 (.inl (by decide)))), if_neg (by decide),
        bind_eq (consume0_none (tok1_kind h1 (by decide)))]
      simp only
      rw [bind_eq (consume0_none (tok1_kind h1 (by decide)))]
      simp only
      rw [bind_eq (consume0_none (tok1_kind h1 (by decide)))]
      simp only
      rw [bind_eq h4]
      simp only
      rw [e]
      rfl
    | fls h1 =>
      have h4 : ∃ t : Token, t.lit = b!"false" ∧ consumen .name [b!"true", b!"false"] ts = .ok (some t) rest := by
        obtain ⟨t, rfl, h5, h6⟩ := h1
        exact ⟨t, h6, (consumen_ok (by decide) (by simp)).2 (.inl ⟨t, rfl, rfl, h5, by simp [h6]⟩)⟩
      obtain ⟨t, e, h4⟩ := h4
      rw [bind_eq (skip1_false (tok1_ne h1 (.inl (by decide)))), if_neg (by decide),
        bind_eq (consume0_none (tok1_kind h1 (by decide)))]
      simp only
      rw [bind_eq (consume0_none (tok1_kind h1 (by decide)))]
      simp only
      rw [bind_eq (consume0_none (tok1_kind h1 (by decide)))]
      simp only
      rw [bind_eq h4]
      simp only
      rw [e]
      rfl
    | null h1 =>
      rw [bind_eq (skip1_false (tok1_ne h1 (.inl (by decide)))), if_neg (by decide),
        bind_eq (consume0_none (tok1_kind h1 (by decide)))]
      simp only
      rw [bind_eq (consume0_none (tok1_kind h1 (by decide)))]
      simp only
      rw [bind_eq (consume0_none (tok1_kind h1 (by decide)))]
      simp only
      rw [bind_eq (consumen_none (fun l hl => tok1_ne h1 (.inr (by
        simp only [List.mem_cons, List.not_mem_nil, or_false] at hl
        rcases hl with rfl | rfl <;> decide))) (by simp))]
      simp only
      rw [bind_eq (skip1_true h1), if_pos rfl]
      rfl
    | enum h1 h2 h3 h5 =>
      obtain ⟨t, e, h4⟩ := consume0_tok h1
      rw [bind_eq (skip1_false (tok1_ne h1 (.inl (by decide)))), if_neg (by decide),
        bind_eq (consume0_none (tok1_kind h1 (by decide)))]
      simp only
      rw [bind_eq (consume0_none (tok1_kind h1 (by decide)))]
      simp only
      rw [bind_eq (consume0_none (tok1_kind h1 (by decide)))]
      simp only
      rw [bind_eq (consumen_none (fun l hl => tok1_ne h1 (.inr (by
        simp only [List.mem_cons, List.not_mem_nil, or_false] at hl
        rcases hl with rfl | rfl
        · exact h2
        · exact h3))) (by simp))]
      simp only
      rw [bind_eq (skip1_false (tok1_ne h1 (.inr h5))), if_neg (by decide), bind_eq h4]
      simp only
      rw [e]
      rfl
    | list h1 h2 h3 =>
      have l1 := tok1_length h1
      have hv := untilDo_complete ih (bskip_complete (k := .punctuator) (l := b!"]")) (fun _ _ _ h => (val_eats h).2)
        bskip_noGrow _ _ _ (by omega)
        (many_uloop_skip (fun _ _ _ h => val_notNext h (by decide)) (many_vals.2 h2) h3)
      rw [bind_eq (skip1_false (tok1_ne h1 (.inr (by decide)))), if_neg (by decide),
        bind_eq (consume0_none (tok1_kind h1 (by decide)))]
      simp only
      rw [bind_eq (consume0_none (tok1_kind h1 (by decide)))]
      simp only
      rw [bind_eq (consume0_none (tok1_kind h1 (by decide)))]
      simp only
      rw [bind_eq (consumen_none (fun l hl => tok1_ne h1 (.inl (by decide))) (by simp))]
      simp only
      rw [bind_eq (skip1_false (tok1_ne h1 (.inl (by decide)))), if_neg (by decide),
        bind_eq (consume0_none (tok1_kind h1 (by decide)))]
      simp only
      rw [bind_eq (skip1_true h1), if_pos rfl, bind_eq hv]
      rfl
    | obj h1 h2 h3 =>
      have l1 := tok1_length h1
      have hv := untilDo_complete (fld_complete ih) (bskip_complete (k := .punctuator) (l := b!"}"))
        (fun _ _ _ h => by
          obtain ⟨r1, r2, h1, h2, h3⟩ := h
          exact ((tok1_eats h1).trans ((tok1_eats h2).1.trans (val_eats h3).1)).2)
        bskip_noGrow _ _ _ (by omega)
        (many_uloop_skip (fun _ _ _ h => by
          obtain ⟨r1, r2, h1, h2, h3⟩ := h
          exact tok1_ne h1 (.inl (by decide))) (many_flds.2 h2) h3)
      rw [bind_eq (skip1_false (tok1_ne h1 (.inr (by decide)))), if_neg (by decide),
        bind_eq (consume0_none (tok1_kind h1 (by decide)))]
      simp only
      rw [bind_eq (consume0_none (tok1_kind h1 (by decide)))]
      simp only
      rw [bind_eq (consume0_none (tok1_kind h1 (by decide)))]
      simp only
      rw [bind_eq (consumen_none (fun l hl => tok1_ne h1 (.inl (by decide))) (by simp))]
      simp only
      rw [bind_eq (skip1_false (tok1_ne h1 (.inl (by decide)))), if_neg (by decide),
        bind_eq (consume0_none (tok1_kind h1 (by decide)))]
      simp only
      rw [bind_eq (skip1_false (tok1_ne h1 (.inr (by decide)))), if_neg (by decide),
        bind_eq (skip1_true h1), if_pos rfl, bind_eq hv]
      rfl

theorem parseDefaultValue_complete (n : Nat) : Complete n (parseDefaultValue pf n) (Default pf true) := by
  intro ts d rest hl h
  rw [parseDefaultValue]
  cases h with
  | none h => rw [bind_eq (skip1_false h), if_neg (by decide)]; rfl
  | some h1 h2 =>
    have l1 := tok1_length h1
    rw [bind_eq (skip1_true h1), if_pos rfl, bind_eq (parseValue_complete n true _ _ _ (by omega) h2)]
    rfl

theorem parseArguments_complete (n : Nat) (c : Bool) : Complete n (parseArguments pf n) (Args pf true c) := by
  intro ts d rest hl h
  rw [parseArguments]
  cases h with
  | none h => rw [bind_eq (skip1_false h), if_neg (by decide)]; rfl
  | some h1 h2 h3 _ =>
    have l1 := tok1_length h1
    rw [bind_eq (skip1_true h1), if_pos rfl]
    refine untilDo_complete (N := n) (R := Arg pf true c) ?_ bskip_complete (fun _ _ _ h => (arg_eats h).2)
      bskip_noGrow _ _ _ (by omega) (many_uloop_skip (fun _ _ _ h => ?_) h2 h3)
    · intro ts a rest hl h
      cases h with
      | mk h1 h2 h3 =>
        obtain ⟨t, e, h4⟩ := mustConsume0_tok h1
        have l1 := tok1_length h1; have l2 := tok1_length h2
        rw [bind_eq h4, mustConsume1_step h2, bind_eq (parseValue_complete n c _ _ _ (by omega) h3), e]
        rfl
    · cases h with
      | mk h1 _ _ => exact tok1_ne h1 (.inl (by decide))

theorem parseDirectives_complete (n : Nat) (c : Bool) (loc : DirLoc) :
    Complete n (parseDirectives pf n loc) (Dirs pf true c loc) := by
  intro ts d rest hl h
  rw [parseDirectives]
  refine untilDo_complete (N := n) (R := Dir pf true c loc) ?_ bnotPeek_complete (fun _ _ _ h => (dir_eats h).2)
    bnotPeek_noGrow _ _ _ (by omega) (many_uloop_peek (fun _ _ _ h => ?_) h.1 h.2)
  · intro ts a rest hl h
    cases h with
    | mk h1 h2 h3 =>
      obtain ⟨t, e, h4⟩ := mustConsume0_tok h2
      have l1 := tok1_length h1; have l2 := tok1_length h2
      rw [mustConsume1_step h1, bind_eq h4, bind_eq (parseArguments_complete n c _ _ _ (by omega) h3), e]
      rfl
  · cases h with
    | mk h1 _ _ => exact ⟨_, h1⟩

/-! Types -/

theorem mustConsume0_notKind {k : TokenKind} {ts : Toks} (h : NotKind k ts) (hk : k ≠ .eof := by decide) :
    ∃ e, mustConsume0 k ts = .err e ts := by
  rw [notKind_iff hk] at h
  unfold mustConsume0
  rw [bind_eq (cur_eq ts), if_pos h]
  exact ⟨_, rfl⟩

theorem mustConsume1_notNext {k : TokenKind} {l : Bytes} {ts : Toks} (h : NotNext1 k l ts) (hk : k ≠ .eof := by decide) :
    ∃ e, mustConsume1 k l ts = .err e ts := by
  rw [notNext1_iff hk] at h
  unfold mustConsume1
  rw [bind_eq (cur_eq ts), if_pos (by simpa [Classical.or_iff_not_imp_left] using h)]
  exact ⟨_, rfl⟩

theorem bind_err_eq {α β : Type} {p : P α} {f : α → P β} {ts r : Toks} {e : PErr} (h : p ts = .err e r) :
    (p >>= f) ts = .err e r := by
  show P.bind p f ts = _
  unfold P.bind; rw [h]

theorem parseType_complete' (n : Nat) : Complete n (parseType n) (TypeRef true) ∧
    ∀ ts rest, ts.length < n → TypeStuck true ts rest → ∃ e, parseType n ts = .err e rest := by
  induction n with
  | zero => exact ⟨fun ts v rest h => by omega, fun ts rest h => by omega⟩
  | succ n ih =>
    constructor
    · intro ts t rest hl h
      rw [parseType]
      cases h with
      | named h1 h2 =>
        obtain ⟨t, e, h4⟩ := mustConsume0_tok h1
        rw [bind_eq (skip1_false (tok1_ne h1 (.inl (by decide))))]
        show (mustConsume0 .name >>= _) _ = _
        rw [bind_eq h4, bind_eq (bang_skip h2), e]
        rfl
      | list h1 h2 h3 h4 =>
        have l1 := tok1_length h1
        rw [bind_eq (skip1_true h1)]
        show (match parseType n _ with | .err _ r => _ | .panic => _ | .oof => _ | .ok t r => _) = _
        rw [ih.1 _ _ _ (by omega) h2]
        simp only
        rw [mustConsume1_step h3, bind_eq (bang_skip h4)]
        rfl
      | broken _ h1 h2 =>
        have l1 := tok1_length h1
        rw [bind_eq (skip1_true h1)]
        show (match parseType n _ with | .err _ r => _ | .panic => _ | .oof => _ | .ok t r => _) = _
        obtain ⟨e, he⟩ := ih.2 _ _ (by omega) h2
        rw [he]
    · intro ts rest hl h
      rw [parseType]
      cases h with
      | start h1 h2 =>
        rw [bind_eq (skip1_false h2)]
        obtain ⟨e, he⟩ := mustConsume0_notKind h1
        exact ⟨e, bind_err_eq he⟩
      | unclosed h1 h2 h3 =>
        have l1 := tok1_length h1
        rw [bind_eq (skip1_true h1)]
        obtain ⟨e, he⟩ := mustConsume1_notNext h3
        refine ⟨e, ?_⟩
        show (match parseType n _ with | .err _ r => _ | .panic => _ | .oof => _ | .ok t r => _) = _
        rw [ih.1 _ _ _ (by omega) h2]
        exact bind_err_eq he

theorem parseType_complete (n : Nat) : Complete n (parseType n) (TypeRef true) := (parseType_complete' n).1

theorem namedType_ref {lax : Bool} {ts t rest} (h : NamedType lax ts t rest) :
    TypeRef true ts t rest ∧ mustBeNamed t rest = .ok () rest := by
  cases h with | mk h1 h2 _ => exact ⟨.named h1 h2, rfl⟩

theorem parseTypeCondition_complete (n : Nat) : Complete n (parseTypeCondition n) (TypeCond true) := by
  intro ts t rest hl h
  cases h with
  | mk h1 h2 =>
    have l1 := tok1_length h1
    obtain ⟨h3, h4⟩ := namedType_ref h2
    rw [parseTypeCondition, mustConsume1_step h1, bind_eq (parseType_complete n _ _ _ (by omega) h3), bind_eq h4]
    rfl

/-! Selections -/

theorem parseField_complete (n N : Nat) (hn : N ≤ n) {sel : P (List Selection)} (hs : Complete N sel (OptSelSet pf true))
    {ts s rest a nm r1 args r2 dirs r3 ss}
    (hl : ts.length ≤ N) (h1 : FieldName ts (a, nm) r1) (h2 : Args pf true false r1 args r2)
    (h3 : Dirs pf true false .field r2 dirs r3) (h4 : OptSelSet pf true r3 ss rest) (e : s = .field a nm args dirs ss) :
    parseField pf n sel ts = .ok s rest := by
  subst e
  have l1 := (fieldName_eats h1).2
  have l2 := (args_eats h2).length
  have l3 := (dirs_eats h3).length
  rw [parseField]
  cases h1 with
  | plain h5 h6 =>
    obtain ⟨t, rfl, h7⟩ := mustConsume0_tok h5
    rw [bind_eq h7, bind_eq (show _ = Res.ok (([] : Bytes), t.lit) r1 by rw [bind_eq (skip1_false h6), if_neg (by decide)]; rfl)]
    simp only
    rw [bind_eq (parseArguments_complete n false _ _ _ (by omega) h2),
      bind_eq (parseDirectives_complete n false _ _ _ _ (by omega) h3), bind_eq (hs _ _ _ (by omega) h4)]
    rfl
  | alias h5 h6 h8 =>
    obtain ⟨t, rfl, h7⟩ := mustConsume0_tok h5
    obtain ⟨t2, rfl, h9⟩ := mustConsume0_tok h8
    rw [bind_eq h7, bind_eq (show _ = Res.ok (t.lit, t2.lit) r1 by
      rw [bind_eq (skip1_true h6), if_pos rfl, bind_eq h9]; rfl)]
    simp only
    rw [bind_eq (parseArguments_complete n false _ _ _ (by omega) h2),
      bind_eq (parseDirectives_complete n false _ _ _ _ (by omega) h3), bind_eq (hs _ _ _ (by omega) h4)]
    rfl

theorem sel_first {lax : Bool} {ts s r} (h : Sel pf lax ts s r) :
    (∃ n r', Nm n ts r') ∨ ∃ r', Pu b!"..." ts r' := by
  cases h with
  | leaf h1 _ _ _ => cases h1 with
    | plain h _ => exact .inl ⟨_, _, h⟩
    | alias h _ _ => exact .inl ⟨_, _, h⟩
  | node h1 _ _ _ => cases h1 with
    | plain h _ => exact .inl ⟨_, _, h⟩
    | alias h _ _ => exact .inl ⟨_, _, h⟩
  | spread h _ _ _ => exact .inr ⟨_, h⟩
  | inline h _ _ _ => exact .inr ⟨_, h⟩

theorem tok1_hd {k : TokenKind} {l : Bytes} {ts r : Toks} (h : Tok1 k l ts r) : (hd ts).kind = k ∧ (hd ts).lit = l := by
  obtain ⟨t, rfl, h1, h2⟩ := h; exact ⟨h1, h2⟩

theorem optCond_complete (n : Nat) : Complete n (do
    if ← peek1 .name b!"on" then
      let c ← parseTypeCondition n
      return some c
    else return none) (OptCond true) := by
  intro ts c rest hl h
  cases h with
  | none h => rw [bind_eq (peek1_false h), if_neg (by decide)]; rfl
  | some h =>
    have h' := h
    cases h' with
    | mk h1 h2 =>
      rw [bind_eq (peek1_true h1), if_pos rfl, bind_eq (parseTypeCondition_complete n _ _ _ hl h)]
      rfl

theorem notNext_of_dirs_selSet {lax c : Bool} {loc ts ds r ss rest} (h : Dirs pf lax c loc ts ds r)
    (h2 : SelSet pf lax r ss rest) {n : Bytes} : ¬ ∃ r', Nm n ts r' := by
  rintro ⟨r', h3⟩
  cases h.1 with
  | nil => cases h2 with | mk h4 _ _ => exact tok1_ne h4 (.inl (by decide)) _ h3
  | cons h5 _ => cases h5 with | mk h4 _ _ => exact tok1_ne h4 (.inl (by decide)) _ h3

theorem parseSelectionSet_complete (n : Nat) :
    Complete n (parseSelectionSet pf n false) (SelSet pf true) ∧ Complete n (parseSelectionSet pf n true) (OptSelSet pf true) := by
  induction n with
  | zero => exact ⟨fun ts v rest h => by omega, fun ts v rest h => by omega⟩
  | succ n ih =>
    have key : ∀ o ts ss rest, ts.length < n + 1 → SelSet pf true ts ss rest →
        parseSelectionSet pf (n + 1) o ts = .ok ss rest := by
      intro o ts ss rest hl h
      rw [parseSelectionSet]
      cases h with
      | mk h1 h2 h3 =>
        have l1 := tok1_length h1
        obtain ⟨h4, hne⟩ := many_of_sels h2
        rw [bind_eq (skip1_true h1), if_pos rfl]
        rw [bind_eq (doWhile_complete (N := n) (R := Sel pf true) ?_ bpeekEof_complete (fun _ _ _ h => (sel_eats h).2)
          bpeekEof_noGrow _ _ _ (by omega) (many_rloop_peekEof (fun _ _ _ h => ?_) h4 hne h3))]
        · rw [mustConsume1_step h3]; rfl
        · intro ts s rest hl h
          cases h with
          | leaf h1 h2 h3 h4 =>
            have : NotNext1 .punctuator b!"..." ts := by
              cases h1 with
              | plain h _ => exact tok1_ne h (.inl (by decide))
              | alias h _ _ => exact tok1_ne h (.inl (by decide))
            rw [bind_eq (skip1_false this), if_neg (by decide)]
            exact parseField_complete n n (Nat.le_refl _) ih.2 (Nat.le_of_lt hl) h1 h2 h3 (.inr ⟨rfl, h4, rfl⟩) rfl
          | node h1 h2 h3 h4 =>
            have : NotNext1 .punctuator b!"..." ts := by
              cases h1 with
              | plain h _ => exact tok1_ne h (.inl (by decide))
              | alias h _ _ => exact tok1_ne h (.inl (by decide))
            rw [bind_eq (skip1_false this), if_neg (by decide)]
            exact parseField_complete n n (Nat.le_refl _) ih.2 (Nat.le_of_lt hl) h1 h2 h3 (.inl h4) rfl
          | spread h1 h2 h3 h4 =>
            obtain ⟨t, e, h5⟩ := mustConsume0_tok h2
            have h6 := tok1_hd h2
            have l1 := tok1_length h1; have l2 := tok1_length h2
            rw [bind_eq (skip1_true h1), if_pos rfl, bind_eq (cur_eq _), if_pos ⟨h6.1, by rw [h6.2]; exact h3⟩,
              parseFragmentSpread, bind_eq h5, bind_eq (parseDirectives_complete n false _ _ _ _ (by omega) h4), e]
            rfl
          | inline h1 h2 h3 h4 =>
            have l1 := tok1_length h1; have l2 := (optCond_eats h2).length; have l3 := (dirs_eats h3).length
            rw [bind_eq (skip1_true h1), if_pos rfl, bind_eq (cur_eq _), if_neg ?_,
              parseInlineFragment, bind_eq (optCond_complete n _ _ _ (by omega) h2),
              bind_eq (parseDirectives_complete n false _ _ _ _ (by omega) h3),
              bind_eq (ih.1 _ _ _ (by omega) h4)]
            · rfl
            · rintro ⟨hk, hne⟩
              cases h2 with
              | none h =>
                exact notNext_of_dirs_selSet h3 h4 ⟨_, (tok1_iff (by decide)).2 ⟨hk, rfl, rfl⟩⟩
              | some h => cases h with | mk h5 _ => exact hne (tok1_hd h5).2
        · rcases sel_first h with ⟨_, _, h⟩ | ⟨_, h⟩
          · exact ⟨tok1_ne h (.inl (by decide)), by rw [(tok1_hd h).1]; decide⟩
          · exact ⟨tok1_ne h (.inr (by decide)), by rw [(tok1_hd h).1]; decide⟩
    constructor
    · exact fun ts ss rest hl h => key _ _ _ _ hl h
    · rintro ts ss rest hl (h | ⟨rfl, h, rfl⟩)
      · exact key _ _ _ _ hl h
      · rw [parseSelectionSet, bind_eq (skip1_false h), if_neg (by decide), if_pos rfl]; rfl

/-! Executable definitions -/

theorem parseVariableDefinitions_complete (n : Nat) : Complete n (parseVariableDefinitions pf n) (VarDefns pf true) := by
  intro ts ds rest hl h
  rw [parseVariableDefinitions]
  cases h with
  | none h => rw [bind_eq (skip1_false h), if_neg (by decide)]; rfl
  | some h1 h2 hne h3 =>
    have l1 := tok1_length h1
    rw [bind_eq (skip1_true h1), if_pos rfl, bind_eq (doWhile_complete (N := n) (R := VarDefn pf true) ?_ bpeek_complete
      (fun _ _ _ h => (varDefn_eats h).2) bpeek_noGrow _ _ _ (by omega) (many_rloop_peek (fun _ _ _ h => ?_) h2 hne h3)),
      mustConsume1_step h3]
    · rfl
    · intro ts a rest hl h
      cases h with
      | mk h1 h2 h3 h4 h5 =>
        obtain ⟨t, e, h6⟩ := mustConsume0_tok h2
        have l1 := tok1_length h1; have l2 := tok1_length h2; have l3 := tok1_length h3
        have l4 := (typeRef_eats h4).2
        rw [mustConsume1_step h1, bind_eq h6, mustConsume1_step h3, bind_eq (parseType_complete n _ _ _ (by omega) h4),
          bind_eq (parseDefaultValue_complete n _ _ _ (by omega) h5), e]
        rfl
    · cases h with | mk h1 _ _ _ _ => exact tok1_ne h1 (.inr (by decide))

theorem opType_first {ts k r} (h : OpType ts k r) : ∃ t : Token, ts = t :: r ∧ t.kind = .name ∧
    t.lit ∈ [b!"query", b!"mutation", b!"subscription"] := by
  cases h with
  | query h => obtain ⟨t, rfl, h1, h2⟩ := h; exact ⟨t, rfl, h1, by simp [h2]⟩
  | mutation h => obtain ⟨t, rfl, h1, h2⟩ := h; exact ⟨t, rfl, h1, by simp [h2]⟩
  | subscription h => obtain ⟨t, rfl, h1, h2⟩ := h; exact ⟨t, rfl, h1, by simp [h2]⟩

theorem parseOperationType_complete (n : Nat) : Complete n parseOperationType OpType := by
  intro ts k rest hl h
  obtain ⟨t, rfl, h1, h2⟩ := opType_first h
  rw [parseOperationType, bind_eq ((mustConsumen_ok (by decide) (by simp)).2 ⟨rfl, h1, h2⟩)]
  cases h with
  | query h =>
    have e : t.lit = _ := (tok1_hd h).2
    rw [if_pos e]; rfl
  | mutation h =>
    have e : t.lit = _ := (tok1_hd h).2
    rw [if_neg (by rw [e]; decide), if_pos e]; rfl
  | subscription h =>
    have e : t.lit = _ := (tok1_hd h).2
    rw [if_neg (by rw [e]; decide), if_neg (by rw [e]; decide)]; rfl

theorem parseOperationDefinition_complete (n : Nat) {ts o rest} (hl : ts.length < n) (h : OpDefn pf true ts o rest) :
    parseOperationDefinition pf n ((hd ts).lit == b!"{") ts = .ok o rest := by
  cases h with
  | shorthand h =>
    have : (hd ts).lit = b!"{" := by cases h with | mk h _ _ => exact (tok1_hd h).2
    rw [this, parseOperationDefinition, if_pos (by decide), bind_eq ((parseSelectionSet_complete n).1 _ _ _ hl h)]
    rfl
  | full h1 h2 h3 h4 h5 =>
    have : (hd ts).lit ≠ b!"{" := by
      obtain ⟨t, rfl, -, h⟩ := opType_first h1
      rw [hd_cons]
      simp only [List.mem_cons, List.not_mem_nil, or_false] at h
      rcases h with h | h | h <;> (rw [h]; decide)
    rw [show ((hd ts).lit == b!"{") = false by simpa using this, parseOperationDefinition, if_neg (by decide)]
    obtain ⟨o, e, h6⟩ := consume0_optTok h2
    have l1 := (opType_eats h1).2; have l2 := (optTok_eats h2).length; have l3 := (varDefns_eats h3).length
    have l4 := (dirs_eats h4).length
    rw [← opLoc_eq] at h4
    rw [bind_eq (parseOperationType_complete n _ _ _ hl h1), bind_eq h6,
      bind_eq (parseVariableDefinitions_complete n _ _ _ (by omega) h3),
      bind_eq (parseDirectives_complete n false _ _ _ _ (by omega) h4),
      bind_eq ((parseSelectionSet_complete n).1 _ _ _ (by omega) h5), e]
    rfl

theorem parseFragmentDefinition_complete (n : Nat) : Complete n (parseFragmentDefinition pf n) (FragDefn pf true) := by
  intro ts f rest hl h
  rw [parseFragmentDefinition]
  cases h with
  | mk h1 h2 hne h3 h4 h5 =>
    have l1 := tok1_length h1; have l2 := tok1_length h2; have l3 := (typeCond_eats h3).2
    have l4 := (dirs_eats h4).length
    obtain ⟨t, e, h6⟩ := consume0_tok h2
    rw [bind_eq (skip1_true h1), if_pos rfl, bind_eq h6]
    simp only
    rw [e, if_neg hne, bind_eq (parseTypeCondition_complete n _ _ _ (by omega) h3),
      bind_eq (parseDirectives_complete n false _ _ _ _ (by omega) h4),
      bind_eq ((parseSelectionSet_complete n).1 _ _ _ (by omega) h5)]
    rfl

/-! Type system definitions -/

theorem parseOperationTypeDefinitions_complete (n : Nat) :
    Complete n (parseOperationTypeDefinitions n) (OpTypeDefns true) := by
  intro ts d rest hl h
  rw [parseOperationTypeDefinitions]
  cases h with
  | mk h1 h2 hne h3 =>
    have l1 := tok1_length h1
    rw [bind_eq (skip1_true h1), if_pos rfl, bind_eq (doWhile_complete (N := n) (R := OpTypeDefn true) ?_ bpeekEof_complete
      (fun _ _ _ h => (opTypeDefn_eats h).2) bpeekEof_noGrow _ _ _ (by omega)
      (many_rloop_peekEof (fun _ _ _ h => ?_) h2 hne h3)), mustConsume1_step h3]
    · rfl
    · intro ts a rest hl h
      cases h with
      | mk h1 h2 h3 =>
        have l1 := (opType_eats h1).2; have l2 := tok1_length h2
        obtain ⟨h4, h5⟩ := namedType_ref h3
        rw [parseOperationTypeDefinition, bind_eq (parseOperationType_complete n _ _ _ hl h1), bind_eq (skip1_true h2),
          if_pos rfl, bind_eq (parseType_complete n _ _ _ (by omega) h4), bind_eq h5]
        rfl
    · cases h with
      | mk h1 _ _ =>
        obtain ⟨t, rfl, hk, -⟩ := opType_first h1
        exact ⟨tok1_ne ⟨t, rfl, hk, rfl⟩ (.inl (by decide)), by rw [hd_cons, hk]; decide⟩

theorem parseSchemaDefinition_complete (n : Nat) : Complete n (parseSchemaDefinition pf n) (SchemaDefn pf true) := by
  intro ts d rest hl h
  rw [parseSchemaDefinition]
  cases h with
  | mk h1 h2 h3 =>
    have l1 := tok1_length h1; have l2 := (dirs_eats h2).length
    rw [bind_eq (skip1_true h1), if_pos rfl, bind_eq (parseDirectives_complete n true _ _ _ _ (by omega) h2),
      bind_eq (parseOperationTypeDefinitions_complete n _ _ _ (by omega) h3)]
    rfl

theorem parseSchemaExtension_complete (n : Nat) : Complete n (parseSchemaExtension pf n) (SchemaExtn pf true) := by
  intro ts d rest hl h
  rw [parseSchemaExtension]
  cases h with
  | ops h1 h2 h3 =>
    have l1 := tok1_length h1; have l2 := (dirs_eats h2).length
    have h4 : _ = Res.ok _ rest := parseOperationTypeDefinitions_complete n _ _ _ (by omega) h3
    cases h3 with
    | mk h5 h6 hne h7 =>
      rw [bind_eq (skip1_true h1), if_pos rfl, bind_eq (parseDirectives_complete n true _ _ _ _ (by omega) h2),
        bind_eq (show _ = Res.ok _ rest by rw [bind_eq (peek1_true h5), if_pos rfl]; exact h4),
        if_neg (by simp [List.length_eq_zero_iff, hne])]
      rfl
  | dirs h1 h2 hne h3 =>
    have l1 := tok1_length h1
    rw [bind_eq (skip1_true h1), if_pos rfl, bind_eq (parseDirectives_complete n true _ _ _ _ (by omega) h2),
      bind_eq (show _ = Res.ok [] rest by rw [bind_eq (peek1_false h3), if_neg (by decide)]; rfl),
      if_neg (by simp [List.length_eq_zero_iff, hne])]
    rfl

theorem parseInputValueDefinition_complete (n : Nat) (loc : DirLoc) :
    Complete n (parseInputValueDefinition pf n loc) (InputValue pf true loc) := by
  intro ts d rest hl h
  rw [parseInputValueDefinition]
  cases h with
  | mk h1 h2 h3 h4 h5 h6 =>
    have l1 := (optTok_eats h1).length; have l2 := tok1_length h2; have l3 := tok1_length h3
    have l4 := (typeRef_eats h4).2; have l5 := (default_eats h5).length
    obtain ⟨o, e, h7⟩ := consume0_optTok h1
    obtain ⟨t, e2, h8⟩ := mustConsume0_tok h2
    rw [bind_eq h7, bind_eq h8, bind_eq (skip1_true h3), if_pos rfl, bind_eq (parseType_complete n _ _ _ (by omega) h4),
      bind_eq (parseDefaultValue_complete n _ _ _ (by omega) h5),
      bind_eq (parseDirectives_complete n true _ _ _ _ (by omega) h6), e, e2]
    rfl

/-- A description or a name. -/
theorem optTok_nm_first {desc : Bytes} {ts r1 n r2} (h : OptTok .stringValue ts desc r1) (h2 : Nm n r1 r2) {l : Bytes} :
    NotNext1 .punctuator l ts ∧ (hd ts).kind ≠ .eof := by
  rcases h with h | ⟨-, -, rfl⟩
  · exact ⟨tok1_ne h (.inl (by decide)), by rw [(tok1_hd h).1]; decide⟩
  · exact ⟨tok1_ne h2 (.inl (by decide)), by rw [(tok1_hd h2).1]; decide⟩

theorem parseArgumentsDefinition_complete (n : Nat) :
    Complete n (parseArgumentsDefinition pf n) (ArgsDef pf true) := by
  intro ts d rest hl h
  rw [parseArgumentsDefinition]
  cases h with
  | none h => rw [bind_eq (skip1_false h), if_neg (by decide)]; rfl
  | some h1 h2 hne h3 =>
    have l1 := tok1_length h1
    rw [bind_eq (skip1_true h1), if_pos rfl, bind_eq (doWhile_complete (N := n)
      (parseInputValueDefinition_complete n _) bpeekEof_complete
      (fun _ _ _ h => (inputValue_eats h).2) bpeekEof_noGrow _ _ _ (by omega)
      (many_rloop_peekEof (fun _ _ _ h => ?_) h2 hne h3)), mustConsume1_step h3]
    · rfl
    · cases h with | mk h1 h2 _ _ _ _ => exact optTok_nm_first h1 h2

theorem locName_mem (l : DirLoc) : l.name ∈ directiveLocations := by cases l <;> decide

/-- The tokens of a list of locations. -/
theorem sepBy_locs {ts ls rest} (h : SepBy LocName b!"|" ts ls rest) :
    ∃ tl : List Token, SepBy (fun ts (t : Token) r => ts = t :: r ∧ t.kind = .name ∧ t.lit ∈ directiveLocations) b!"|" ts tl rest ∧
      tl.map (·.lit) = ls.map DirLoc.name := by
  induction h with
  | @one ts a rest h1 h2 =>
    obtain ⟨t, rfl, h3, h4⟩ := h1
    exact ⟨[t], .one ⟨rfl, h3, h4 ▸ locName_mem a⟩ h2, by simp [h4, place_eq]⟩
  | @cons ts a r r' as rest h1 h2 _ ih =>
    obtain ⟨t, rfl, h3, h4⟩ := h1
    obtain ⟨tl, h5, h6⟩ := ih
    exact ⟨t :: tl, .cons ⟨rfl, h3, h4 ▸ locName_mem a⟩ h2 h5, by simp [h4, h6, place_eq]⟩

theorem locMask_eq (tl : List Token) (ls : List DirLoc) (m : Nat) (h : tl.map (·.lit) = ls.map DirLoc.name) :
    tl.foldl (fun a t => a ||| locByName t.lit) m = ls.foldl (fun m l => m ||| l.bit) m := by
  induction tl generalizing ls m with
  | nil => cases ls with
    | nil => rfl
    | cons l ls => cases h
  | cons t tl ih => cases ls with
    | nil => cases h
    | cons l ls =>
      simp only [List.map_cons, List.cons.injEq] at h
      rw [List.foldl_cons, List.foldl_cons, h.1, locByName_name]
      exact ih _ _ h.2

theorem parseDirectiveDefinition_complete (n : Nat) (desc : Bytes) :
    Complete n (parseDirectiveDefinition pf n desc) (DirDefn pf true desc) := by
  intro ts d rest hl h
  rw [parseDirectiveDefinition]
  cases h with
  | @mk r1 r2 nm r3 as r4 r5 r6 ls _ h1 h2 h3 h4 h5 h6 h7 =>
    have l1 := tok1_length h1; have l2 := tok1_length h2; have l3 := tok1_length h3
    have l4 := (argsDef_eats h4).length; have l5 := tok1_length h5; have l6 := (optPu_eats h6).length
    obtain ⟨t, e, h8⟩ := mustConsume0_tok h3
    obtain ⟨b, h9⟩ := optPu_skip h6
    obtain ⟨tl, h10, h11⟩ := sepBy_locs h7
    have h12 : parseDirectiveLocations r5 = .ok (locMask ls) rest := by
      rw [parseDirectiveLocations, bind_eq h9, bind_eq (doWhile_complete (N := n)
        (R := fun ts (t : Token) r => ts = t :: r ∧ t.kind = .name ∧ t.lit ∈ directiveLocations)
        (fun _ _ _ _ h => (mustConsumen_ok (by decide) (by decide)).2 h) bsep_complete
        (fun _ _ _ h => by rw [h.1]; simp) bsep_noGrow _ _ _ (by omega) (sep_rloop h10)), locMask_eq tl ls 0 h11]
      rfl
    rw [bind_eq (skip1_true h1), if_pos rfl, bind_eq (skip1_true h2), if_pos rfl, bind_eq h8,
      bind_eq (parseArgumentsDefinition_complete n _ _ _ (by omega) h4), bind_eq (skip1_true h5), if_pos rfl,
      bind_eq h12, e]
    rfl

theorem parseType_memberComplete (n : Nat) : Complete n (parseType n) (MemberType true) :=
  fun _ _ _ hl h => parseType_complete n _ _ _ hl h.1

theorem parseImplementsInterfaces_complete (n : Nat) : Complete n (parseImplementsInterfaces n) (Implements true) := by
  intro ts d rest hl h
  rw [parseImplementsInterfaces]
  cases h with
  | none h => rw [bind_eq (skip1_false h), if_neg (by decide)]; rfl
  | some h1 h2 h3 =>
    have l1 := tok1_length h1; have l2 := (optPu_eats h2).length
    obtain ⟨b, h4⟩ := optPu_skip h2
    rw [bind_eq (skip1_true h1), if_pos rfl, bind_eq h4]
    exact doWhile_complete (parseType_memberComplete n) bsep_complete (fun _ _ _ h => (memberType_eats h).2) bsep_noGrow
      _ _ _ (by omega) (sep_rloop h3)

theorem parseUnionMemberTypes_complete (n : Nat) : Complete n (parseUnionMemberTypes n) (UnionMembers true) := by
  intro ts d rest hl h
  rw [parseUnionMemberTypes]
  cases h with
  | none h => rw [bind_eq (skip1_false h), if_neg (by decide)]; rfl
  | some h1 h2 h3 =>
    have l1 := tok1_length h1; have l2 := (optPu_eats h2).length
    obtain ⟨b, h4⟩ := optPu_skip h2
    rw [bind_eq (skip1_true h1), if_pos rfl, bind_eq h4]
    exact doWhile_complete (parseType_memberComplete n) bsep_complete (fun _ _ _ h => (memberType_eats h).2) bsep_noGrow
      _ _ _ (by omega) (sep_rloop h3)

theorem block_complete {α : Type} {body : P α} {R : Toks → α → Toks → Prop} {n : Nat} (hb : Complete n body R)
    (hs : Shrink R) (hf : ∀ ts a r, R ts a r → NotNext1 .punctuator b!"}" ts) :
    Complete n (do
      if ← skip1 .punctuator b!"{" then doWhile body (skip1 .punctuator b!"}")
      else return []) (Block R) := by
  intro ts ds rest hl h
  cases h with
  | none h => rw [bind_eq (skip1_false h), if_neg (by decide)]; rfl
  | some h1 h2 hne h3 =>
    have l1 := tok1_length h1
    rw [bind_eq (skip1_true h1), if_pos rfl]
    exact doWhile_complete hb bskip_complete hs bskip_noGrow _ _ _ (by omega) (many_rloop_skip hf h2 hne h3)

theorem parseFieldsDefinition_complete (n : Nat) :
    Complete n (parseFieldsDefinition pf n) (Block (FieldDefn pf true)) := by
  apply block_complete
  · intro ts d rest hl h
    cases h with
    | mk h1 h2 h3 h4 h5 h6 =>
      have l1 := (optTok_eats h1).length; have l2 := tok1_length h2; have l3 := (argsDef_eats h3).length
      have l4 := tok1_length h4; have l5 := (typeRef_eats h5).2
      obtain ⟨o, e, h7⟩ := consume0_optTok h1
      obtain ⟨t, e2, h8⟩ := mustConsume0_tok h2
      rw [bind_eq h7, bind_eq h8, bind_eq (parseArgumentsDefinition_complete n _ _ _ (by omega) h3),
        bind_eq (skip1_true h4), if_pos rfl, bind_eq (parseType_complete n _ _ _ (by omega) h5),
        bind_eq (parseDirectives_complete n true _ _ _ _ (by omega) h6), e, e2]
      rfl
  · exact fun _ _ _ h => (fieldDefn_eats h).2
  · intro _ _ _ h
    cases h with | mk h1 h2 _ _ _ _ => exact (optTok_nm_first h1 h2).1

theorem parseEnumValuesDefinition_complete (n : Nat) :
    Complete n (parseEnumValuesDefinition pf n) (Block (EnumValDefn pf true)) := by
  apply block_complete
  · intro ts d rest hl h
    cases h with
    | mk h1 h2 h3 h4 h5 h6 =>
      have l1 := (optTok_eats h1).length; have l2 := tok1_length h2
      obtain ⟨o, e, h7⟩ := consume0_optTok h1
      obtain ⟨t, e2, h8⟩ := mustConsume0_tok h2
      rw [bind_eq h7, bind_eq h8, if_neg (by rw [e2]; simp [h3, h4, h5]),
        bind_eq (parseDirectives_complete n true _ _ _ _ (by omega) h6), e, e2]
      rfl
  · exact fun _ _ _ h => (enumValDefn_eats h).2
  · intro _ _ _ h
    cases h with | mk h1 h2 _ _ _ _ => exact (optTok_nm_first h1 h2).1

theorem parseInputFieldsDefinition_complete (n : Nat) :
    Complete n (parseInputFieldsDefinition pf n) (Block (InputValue pf true .inputFieldDefinition)) := by
  apply block_complete (parseInputValueDefinition_complete n _)
  · exact fun _ _ _ h => (inputValue_eats h).2
  · intro _ _ _ h
    cases h with | mk h1 h2 _ _ _ _ => exact (optTok_nm_first h1 h2).1

theorem kindOf_kw (k : TypeKind) : kindOf k.keyword = some k := by cases k <;> rfl

theorem parseTypeDefinition_complete (n : Nat) (desc : Bytes) :
    Complete n (parseTypeDefinition pf n desc) (TypeDefn pf true desc) := by
  intro ts d rest hl h
  rw [parseTypeDefinition]
  cases h with
  | scalar h1 h2 h3 =>
    obtain ⟨t, e, h4⟩ := mustConsume0_tok h1
    obtain ⟨t2, e2, h5⟩ := mustConsume0_tok h2
    have l1 := tok1_length h1; have l2 := tok1_length h2
    rw [bind_eq h4, e, show kindOf b!"scalar" = some .scalar from rfl]
    simp only
    rw [parseTypeBody, bind_eq h5]
    simp only
    rw [bind_eq (parseDirectives_complete n true _ _ _ _ (by omega) h3), e2]
    rfl
  | object h1 h2 h3 h6 h7 =>
    obtain ⟨t, e, h4⟩ := mustConsume0_tok h1
    obtain ⟨t2, e2, h5⟩ := mustConsume0_tok h2
    have l1 := tok1_length h1; have l2 := tok1_length h2; have l3 := (implements_eats h3).length
    have l4 := (dirs_eats h6).length
    rw [bind_eq h4, e, show kindOf b!"type" = some .object from rfl]
    simp only
    rw [parseTypeBody, bind_eq h5]
    simp only
    rw [bind_eq (parseImplementsInterfaces_complete n _ _ _ (by omega) h3),
      bind_eq (parseDirectives_complete n true _ _ _ _ (by omega) h6),
      bind_eq (parseFieldsDefinition_complete n _ _ _ (by omega) h7), e2]
    rfl
  | interface h1 h2 h3 h6 =>
    obtain ⟨t, e, h4⟩ := mustConsume0_tok h1
    obtain ⟨t2, e2, h5⟩ := mustConsume0_tok h2
    have l1 := tok1_length h1; have l2 := tok1_length h2; have l3 := (dirs_eats h3).length
    rw [bind_eq h4, e, show kindOf b!"interface" = some .interface from rfl]
    simp only
    rw [parseTypeBody, bind_eq h5]
    simp only
    rw [bind_eq (parseDirectives_complete n true _ _ _ _ (by omega) h3),
      bind_eq (parseFieldsDefinition_complete n _ _ _ (by omega) h6), e2]
    rfl
  | union h1 h2 h3 h6 =>
    obtain ⟨t, e, h4⟩ := mustConsume0_tok h1
    obtain ⟨t2, e2, h5⟩ := mustConsume0_tok h2
    have l1 := tok1_length h1; have l2 := tok1_length h2; have l3 := (dirs_eats h3).length
    rw [bind_eq h4, e, show kindOf b!"union" = some .union from rfl]
    simp only
    rw [parseTypeBody, bind_eq h5]
    simp only
    rw [bind_eq (parseDirectives_complete n true _ _ _ _ (by omega) h3),
      bind_eq (parseUnionMemberTypes_complete n _ _ _ (by omega) h6), e2]
    rfl
  | enum h1 h2 h3 h6 =>
    obtain ⟨t, e, h4⟩ := mustConsume0_tok h1
    obtain ⟨t2, e2, h5⟩ := mustConsume0_tok h2
    have l1 := tok1_length h1; have l2 := tok1_length h2; have l3 := (dirs_eats h3).length
    rw [bind_eq h4, e, show kindOf b!"enum" = some .enum from rfl]
    simp only
    rw [parseTypeBody, bind_eq h5]
    simp only
    rw [bind_eq (parseDirectives_complete n true _ _ _ _ (by omega) h3),
      bind_eq (parseEnumValuesDefinition_complete n _ _ _ (by omega) h6), e2]
    rfl
  | input h1 h2 h3 h6 =>
    obtain ⟨t, e, h4⟩ := mustConsume0_tok h1
    obtain ⟨t2, e2, h5⟩ := mustConsume0_tok h2
    have l1 := tok1_length h1; have l2 := tok1_length h2; have l3 := (dirs_eats h3).length
    rw [bind_eq h4, e, show kindOf b!"input" = some .inputObject from rfl]
    simp only
    rw [parseTypeBody, bind_eq h5]
    simp only
    rw [bind_eq (parseDirectives_complete n true _ _ _ _ (by omega) h3),
      bind_eq (parseInputFieldsDefinition_complete n _ _ _ (by omega) h6), e2]
    rfl

theorem implementsOpt_complete (n : Nat) : Complete n (do
      if ← peek1 .name b!"implements" then parseImplementsInterfaces n
      else return []) (Implements true) := by
  intro ts is rest hl h
  have h' := h
  cases h' with
  | none h1 => rw [bind_eq (peek1_false h1), if_neg (by decide)]; rfl
  | some h1 _ _ =>
    rw [bind_eq (peek1_true h1), if_pos rfl]; exact parseImplementsInterfaces_complete n _ _ _ hl h

theorem parseTypeExtension_complete (n : Nat) :
    Complete n (parseTypeExtension pf n) (TypeDefn pf true []) := by
  intro ts d rest hl h
  rw [parseTypeExtension]
  cases h with
  | scalar h1 h2 h3 =>
    obtain ⟨t, e, h4⟩ := mustConsume0_tok h1
    obtain ⟨t2, e2, h5⟩ := mustConsume0_tok h2
    have l1 := tok1_length h1; have l2 := tok1_length h2
    rw [bind_eq h4, bind_eq h5, e, if_neg (by decide), bind_eq (pure_eq _ _),
      show kindOf b!"scalar" = some .scalar from rfl]
    simp only
    rw [bind_eq (parseDirectives_complete n true _ _ _ _ (by omega) h3), e2]
    rfl
  | object h1 h2 h3 h6 h7 =>
    obtain ⟨t, e, h4⟩ := mustConsume0_tok h1
    obtain ⟨t2, e2, h5⟩ := mustConsume0_tok h2
    have l1 := tok1_length h1; have l2 := tok1_length h2; have l3 := (implements_eats h3).length
    have l4 := (dirs_eats h6).length
    rw [bind_eq h4, bind_eq h5, e, if_pos rfl, bind_eq (implementsOpt_complete n _ _ _ (by omega) h3),
      show kindOf b!"type" = some .object from rfl]
    simp only
    rw [bind_eq (parseDirectives_complete n true _ _ _ _ (by omega) h6),
      bind_eq (parseFieldsDefinition_complete n _ _ _ (by omega) h7), e2]
    rfl
  | interface h1 h2 h3 h6 =>
    obtain ⟨t, e, h4⟩ := mustConsume0_tok h1
    obtain ⟨t2, e2, h5⟩ := mustConsume0_tok h2
    have l1 := tok1_length h1; have l2 := tok1_length h2; have l3 := (dirs_eats h3).length
    rw [bind_eq h4, bind_eq h5, e, if_neg (by decide), bind_eq (pure_eq _ _),
      show kindOf b!"interface" = some .interface from rfl]
    simp only
    rw [bind_eq (parseDirectives_complete n true _ _ _ _ (by omega) h3),
      bind_eq (parseFieldsDefinition_complete n _ _ _ (by omega) h6), e2]
    rfl
  | union h1 h2 h3 h6 =>
    obtain ⟨t, e, h4⟩ := mustConsume0_tok h1
    obtain ⟨t2, e2, h5⟩ := mustConsume0_tok h2
    have l1 := tok1_length h1; have l2 := tok1_length h2; have l3 := (dirs_eats h3).length
    rw [bind_eq h4, bind_eq h5, e, if_neg (by decide), bind_eq (pure_eq _ _),
      show kindOf b!"union" = some .union from rfl]
    simp only
    rw [bind_eq (parseDirectives_complete n true _ _ _ _ (by omega) h3),
      bind_eq (parseUnionMemberTypes_complete n _ _ _ (by omega) h6), e2]
    rfl
  | enum h1 h2 h3 h6 =>
    obtain ⟨t, e, h4⟩ := mustConsume0_tok h1
    obtain ⟨t2, e2, h5⟩ := mustConsume0_tok h2
    have l1 := tok1_length h1; have l2 := tok1_length h2; have l3 := (dirs_eats h3).length
    rw [bind_eq h4, bind_eq h5, e, if_neg (by decide), bind_eq (pure_eq _ _),
      show kindOf b!"enum" = some .enum from rfl]
    simp only
    rw [bind_eq (parseDirectives_complete n true _ _ _ _ (by omega) h3),
      bind_eq (parseEnumValuesDefinition_complete n _ _ _ (by omega) h6), e2]
    rfl
  | input h1 h2 h3 h6 =>
    obtain ⟨t, e, h4⟩ := mustConsume0_tok h1
    obtain ⟨t2, e2, h5⟩ := mustConsume0_tok h2
    have l1 := tok1_length h1; have l2 := tok1_length h2; have l3 := (dirs_eats h3).length
    rw [bind_eq h4, bind_eq h5, e, if_neg (by decide), bind_eq (pure_eq _ _),
      show kindOf b!"input" = some .inputObject from rfl]
    simp only
    rw [bind_eq (parseDirectives_complete n true _ _ _ _ (by omega) h3),
      bind_eq (parseInputFieldsDefinition_complete n _ _ _ (by omega) h6), e2]
    rfl

/-- A type definition begins with its keyword. -/
theorem typeDefn_first {lax : Bool} {desc ts d rest} (h : TypeDefn pf lax desc ts d rest) :
    ∃ r, Nm d.kind.keyword ts r := by
  cases h with
  | scalar h1 => exact ⟨_, h1⟩
  | object h1 => exact ⟨_, h1⟩
  | interface h1 => exact ⟨_, h1⟩
  | union h1 => exact ⟨_, h1⟩
  | enum h1 => exact ⟨_, h1⟩
  | input h1 => exact ⟨_, h1⟩

/-! Definitions and documents -/

theorem peekn_false {k : TokenKind} {ls : List Bytes} {ts : Toks} (h : ∀ l ∈ ls, NotNext1 k l ts) (hl : ls ≠ [])
    (hk : k ≠ .eof := by decide) : peekn k ls ts = .ok false ts := by
  rw [peekn_eq hl]
  congr 1
  rw [Bool.and_eq_false_iff]
  by_cases h1 : (hd ts).kind = k
  · right
    rw [← Bool.not_eq_true, List.contains_iff_mem]
    exact fun hm => (notNext1_iff hk).1 (h _ hm) ⟨h1, rfl⟩
  · left; simpa using h1

theorem peekn_true {k : TokenKind} {ls : List Bytes} {l : Bytes} {ts r : Toks} (h : Tok1 k l ts r) (hm : l ∈ ls) :
    peekn k ls ts = .ok true ts := by
  rw [peekn_eq (by rintro rfl; cases hm), (tok1_hd h).1, (tok1_hd h).2, List.contains_iff_mem.2 hm]
  simp

theorem keyword_mem (k : TypeKind) : k.keyword ∈ typeKeywords := by cases k <;> decide

/-- The test for an operation fails. -/
theorem notOp {ts : Toks} {k : TokenKind} {l : Bytes} {r : Toks} (h : Tok1 k l ts r)
    (hne : (k ≠ .name ∧ k ≠ .punctuator) ∨ (k = .name ∧ l ∉ [b!"query", b!"mutation", b!"subscription"])) :
    orP (peekn .name [b!"query", b!"mutation", b!"subscription"]) (peek1 .punctuator b!"{") ts = .ok false ts := by
  rw [orP_ok]
  right
  refine ⟨ts, peekn_false (fun l' hl' => tok1_ne h ?_) (by simp), peek1_false (tok1_ne h ?_)⟩
  · rcases hne with h' | ⟨rfl, h'⟩
    · exact .inl h'.1
    · exact .inr (fun e => h' (e ▸ hl'))
  · rcases hne with h' | ⟨rfl, h'⟩
    · exact .inl h'.2
    · exact .inl (by decide)

/-- After the optional description. -/
theorem body_desc {n : Nat} {ts r r' : Toks} {desc l : Bytes} (h1 : OptTok .stringValue ts desc r)
    (h2 : Nm l r r') (hl : l ∈ typeKeywords ++ [b!"directive"] ++ (if desc = [] then [b!"schema"] else [])) :
    parseDefinitionBody pf n ts = parseTypeSystemDefinition pf n desc r := by
  have hl' : l ∈ [b!"scalar", b!"type", b!"interface", b!"union", b!"enum", b!"input", b!"directive", b!"schema"] := by
    by_cases e : desc = []
    · rw [if_pos e] at hl; exact hl
    · rw [if_neg e] at hl
      have := List.mem_append_left [b!"schema"] hl
      rw [List.append_nil] at this
      exact this
  obtain ⟨o, e, h3⟩ := consume0_optTok h1
  have hop : ∃ k l r, Tok1 k l ts r ∧ ((k ≠ .name ∧ k ≠ .punctuator) ∨ (k = .name ∧ l ∉ [b!"query", b!"mutation", b!"subscription"])) ∧
      (k ≠ .name ∨ l ≠ b!"fragment") ∧ (k ≠ .name ∨ l ≠ b!"extend") := by
    rcases h1 with h | ⟨-, -, rfl⟩
    · exact ⟨_, _, _, h, .inl (by decide), .inl (by decide), .inl (by decide)⟩
    · refine ⟨_, _, _, h2, .inr ⟨rfl, ?_⟩, .inr ?_, .inr ?_⟩
      all_goals
        simp only [List.mem_cons, List.not_mem_nil, or_false] at hl'
        rcases hl' with rfl | rfl | rfl | rfl | rfl | rfl | rfl | rfl <;> decide
  obtain ⟨k, l0, r0, h4, h5, h6, h7⟩ := hop
  rw [parseDefinitionBody, bind_eq (cur_eq ts), bind_eq (notOp h4 h5), if_neg (by decide),
    bind_eq (peek1_false (tok1_ne h4 h6)), if_neg (by decide), bind_eq (peek1_false (tok1_ne h4 h7)), if_neg (by decide),
    bind_eq h3, e, bind_eq (peekn_true h2 hl), if_pos rfl]

theorem parseDefinitionBody_complete (n : Nat) : Complete n (parseDefinitionBody pf n) (Defn pf true) := by
  intro ts b rest hl h
  cases h with
  | op h =>
    have : orP (peekn .name [b!"query", b!"mutation", b!"subscription"]) (peek1 .punctuator b!"{") ts = .ok true ts := by
      rw [orP_ok]
      cases h with
      | shorthand h =>
        cases h with
        | mk h1 _ _ => exact .inr ⟨ts, peekn_false (fun l hl => tok1_ne h1 (.inl (by decide))) (by simp), peek1_true h1⟩
      | full h1 _ _ _ _ =>
        obtain ⟨t, rfl, h2, h3⟩ := opType_first h1
        exact .inl ⟨rfl, peekn_true (r := _) ⟨t, rfl, h2, rfl⟩ h3⟩
    rw [parseDefinitionBody, bind_eq (cur_eq ts), bind_eq this, if_pos rfl,
      bind_eq (parseOperationDefinition_complete n hl h)]
    rfl
  | frag h =>
    have h' := h
    cases h' with
    | mk h1 _ _ _ _ _ =>
      rw [parseDefinitionBody, bind_eq (cur_eq ts), bind_eq (notOp h1 (.inr ⟨rfl, by decide⟩)), if_neg (by decide),
        bind_eq (peek1_true h1), if_pos rfl, bind_eq (parseFragmentDefinition_complete n _ _ _ hl h)]
      rfl
  | schema h =>
    have h' := h
    cases h' with
    | mk h1 _ _ =>
      rw [body_desc (desc := []) (.inr ⟨rfl, tok1_kind h1 (by decide), rfl⟩) h1 (by decide),
        parseTypeSystemDefinition, bind_eq (peek1_true h1), if_pos rfl,
        bind_eq (parseSchemaDefinition_complete n _ _ _ hl h)]
      rfl
  | schemaDesc _ h0 h =>
    have h' := h
    have l1 := tok1_length h0
    cases h' with
    | mk h1 _ _ =>
      rw [body_desc (desc := []) (.inl h0) h1 (by decide),
        parseTypeSystemDefinition, bind_eq (peek1_true h1), if_pos rfl,
        bind_eq (parseSchemaDefinition_complete n _ _ _ (by omega) h)]
      rfl
  | @type desc r t _ h0 h =>
    have l1 := (optTok_eats h0).length
    obtain ⟨r', h1⟩ := typeDefn_first h
    rw [body_desc h0 h1 (by
        rw [List.append_assoc]; exact List.mem_append_left _ (keyword_mem _)),
      parseTypeSystemDefinition, bind_eq (peek1_false (tok1_ne h1 (.inr (by cases t.kind <;> decide)))), if_neg (by decide),
      bind_eq (peek1_false (tok1_ne h1 (.inr (by cases t.kind <;> decide)))), if_neg (by decide),
      bind_eq (peekn_true h1 (keyword_mem _)), if_pos rfl,
      bind_eq (parseTypeDefinition_complete n _ _ _ _ (by omega) h)]
    rfl
  | directive h0 h =>
    have l1 := (optTok_eats h0).length
    have h' := h
    cases h' with
    | mk h1 _ _ _ _ _ _ =>
      rw [body_desc h0 h1 (by simp),
        parseTypeSystemDefinition, bind_eq (peek1_false (tok1_ne h1 (.inr (by decide)))), if_neg (by decide),
        bind_eq (peek1_true h1), if_pos rfl, bind_eq (parseDirectiveDefinition_complete n _ _ _ _ (by omega) h)]
      rfl
  | @schemaExt r s _ h1 h =>
    have l1 := tok1_length h1
    have h' : ∃ r', Nm b!"schema" r r' := by cases h with
      | ops h _ _ => exact ⟨_, h⟩
      | dirs h _ _ _ => exact ⟨_, h⟩
    obtain ⟨r', h2⟩ := h'
    rw [parseDefinitionBody, bind_eq (cur_eq ts), bind_eq (notOp h1 (.inr ⟨rfl, by decide⟩)), if_neg (by decide),
      bind_eq (peek1_false (tok1_ne h1 (.inr (by decide)))), if_neg (by decide), bind_eq (peek1_true h1), if_pos rfl,
      parseTypeSystemExtension, bind_eq (skip1_true h1), if_pos rfl, bind_eq (peek1_true h2), if_pos rfl,
      bind_eq (parseSchemaExtension_complete n _ _ _ (by omega) h)]
    rfl
  | @typeExt r t _ h1 h _ =>
    have l1 := tok1_length h1
    obtain ⟨r', h2⟩ := typeDefn_first h
    rw [parseDefinitionBody, bind_eq (cur_eq ts), bind_eq (notOp h1 (.inr ⟨rfl, by decide⟩)), if_neg (by decide),
      bind_eq (peek1_false (tok1_ne h1 (.inr (by decide)))), if_neg (by decide), bind_eq (peek1_true h1), if_pos rfl,
      parseTypeSystemExtension, bind_eq (skip1_true h1), if_pos rfl,
      bind_eq (peek1_false (tok1_ne h2 (.inr (by cases t.kind <;> decide)))), if_neg (by decide),
      bind_eq (peekn_true h2 (keyword_mem _)), if_pos rfl,
      bind_eq (parseTypeExtension_complete n _ _ _ (by omega) h)]
    rfl

theorem parseDefinition_complete (n : Nat) : Complete n (parseDefinition pf n) (LocDefn pf true) := by
  intro ts b rest hl h
  cases h with
  | mk h => rw [parseDefinition, bind_eq (cur_eq _), bind_eq (parseDefinitionBody_complete n _ _ _ hl h)]; rfl

theorem parseDefinition_sound (n : Nat) : Sound (parseDefinition pf n) (LocDefn pf true) := by
  intro ts d rest h
  rw [parseDefinition, bind_eq (cur_eq _), bind_ok] at h
  obtain ⟨b, r, h1, h⟩ := h
  obtain ⟨rfl, rfl⟩ := pure_ok.1 h
  have h2 := parseDefinitionBody_sound n _ _ _ h1
  cases ts with
  | nil => have := (defn_eats h2).2; simp at this
  | cons t ts => exact .mk h2

/-- A definition that is not followed by an Illegal token. -/
def StepDefn (pf : Bytes → Option Nat) (ts : Toks) (d : Definition) (rest : Toks) : Prop :=
  LocDefn pf true ts d rest ∧ (hd rest).kind ≠ .illegal

theorem step_sound (n : Nat) : Sound (do
      let d ← parseDefinition pf n
      if ← peek0 .illegal then unexpectedCur []
      else return d) (StepDefn pf) := by
  intro ts d rest h
  rw [bind_ok] at h
  obtain ⟨d', r, h1, h⟩ := h
  rw [bind_ok] at h
  obtain ⟨b, r', h2, h⟩ := h
  obtain ⟨rfl, hb⟩ := peek0_ok.1 h2
  cases b with
  | true => exact (unexpectedCur_ok.1 h).elim
  | false =>
    obtain ⟨rfl, rfl⟩ := pure_ok.1 h
    exact ⟨parseDefinition_sound n _ _ _ h1, by simpa using hb.symm⟩

theorem step_complete (n : Nat) : Complete n (do
      let d ← parseDefinition pf n
      if ← peek0 .illegal then unexpectedCur []
      else return d) (StepDefn pf) := by
  intro ts d rest hl h
  rw [bind_eq (parseDefinition_complete n _ _ _ hl h.1),
    bind_eq (peek0_ok.2 ⟨rfl, (show ((hd rest).kind == .illegal) = false by simpa using h.2).symm⟩), if_neg (by decide)]
  rfl

/-- The end of the document. -/
def BEof (ts : Toks) (b : Bool) (rest : Toks) : Prop := rest = ts ∧ b = ((hd ts).kind == .eof)

theorem parseDefs_iff (n : Nat) {ts rest : Toks} (hl : ts.length < n) {ds : List Definition} :
    parseDefs pf n ts = .ok ds rest ↔ RLoop (StepDefn pf) BEof ts ds rest :=
  ⟨fun h => doWhile_sound (B := BEof) (step_sound n) (fun _ _ _ h => peek0_ok.1 h) _ _ _ h,
   fun h => doWhile_complete (B := BEof) (step_complete n) (fun _ _ _ _ h => peek0_ok.2 h) (fun _ _ _ h => (locDefn_eats h.1).2)
    (by rintro ts b rest ⟨rfl, -⟩; exact Nat.le_refl _) _ _ _ hl h⟩

/-- The next token of a definition is not Illegal and not EOF. -/
theorem eats1_hd {ts rest : Toks} (h : Eats1 ts rest) : (hd ts).kind ≠ .eof ∧ (hd ts).kind ≠ .illegal := by
  obtain ⟨⟨pre, rfl, h2⟩, h3⟩ := h
  cases pre with
  | nil => simp at h3
  | cons t pre => exact h2 t (by simp)

theorem rloop_doc {ts rest : Toks} {ds : List Definition} :
    RLoop (StepDefn pf) BEof ts ds rest ↔ ds ≠ [] ∧ Many (LocDefn pf true) ts ds rest ∧ (hd rest).kind = .eof := by
  constructor
  · intro h
    induction h with
    | stop h1 h2 =>
      obtain ⟨rfl, h2⟩ := h2
      exact ⟨by simp, .cons h1.1 (.nil _), by simpa using h2.symm⟩
    | next h1 h2 _ ih =>
      obtain ⟨rfl, h2⟩ := h2
      exact ⟨by simp, .cons h1.1 ih.2.1, ih.2.2⟩
  · rintro ⟨hne, h, he⟩
    induction h with
    | nil => exact absurd rfl hne
    | @cons ts a r as rest h1 h2 ih =>
      cases h2 with
      | nil => exact .stop ⟨h1, by rw [he]; decide⟩ ⟨rfl, by rw [he]; rfl⟩
      | cons h3 h4 =>
        have h5 := eats1_hd (locDefn_eats h3)
        exact .next ⟨h1, h5.2⟩ ⟨rfl, (by simpa using h5.1)⟩ (ih (by simp) he)

theorem parseDefs_doc (n : Nat) {ts rest : Toks} (hl : ts.length < n) {ds : List Definition} :
    parseDefs pf n ts = .ok ds rest ↔ ds ≠ [] ∧ Many (LocDefn pf true) ts ds rest ∧ (hd rest).kind = .eof := by
  rw [parseDefs_iff n hl, rloop_doc]

end

end GQL
