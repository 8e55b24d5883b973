/-
Everything the parser accepts is derivable in the lax grammar.
-/
import Verif.Proofs.ParseLoop

namespace GQL
open Spec

/-! Integers -/

theorem foldl_dec (ds : Bytes) (a : Nat) :
    ds.foldl (fun a b => a * 10 + (b - 48)) a = a * 10 ^ ds.length + decVal ds := by
  induction ds generalizing a with
  | nil => simp [decVal]
  | cons d ds ih =>
    rw [List.foldl_cons, ih, decVal, List.length_cons, Nat.pow_succ, Nat.add_mul, Nat.add_assoc]
    congr 1
    rw [Nat.mul_assoc, Nat.mul_comm 10]

theorem atoi_digits {ds : Bytes} : (ds.isEmpty || !ds.all (fun b => decide (48 ≤ b) && decide (b ≤ 57))) = false ↔
    AllDigits ds := by
  unfold AllDigits
  cases ds with
  | nil => simp
  | cons d ds => simp

theorem atoi_iff {s : Bytes} {i : Int} : atoi s = some i ↔ IntLit s i ∧ Int64 i := by
  have split : (∃ t, s = 45 :: t) ∨ (∃ t, s = 43 :: t) ∨ ((∀ t, s ≠ 45 :: t) ∧ ∀ t, s ≠ 43 :: t) := by
    by_cases h1 : ∃ t, s = 45 :: t
    · exact .inl h1
    · by_cases h2 : ∃ t, s = 43 :: t
      · exact .inr (.inl h2)
      · exact .inr (.inr ⟨fun t h => h1 ⟨t, h⟩, fun t h => h2 ⟨t, h⟩⟩)
  have sgn : ∀ b t, (b = 45 ∨ b = 43) → ¬ AllDigits (b :: t) := by
    rintro b t hb ⟨-, h⟩
    have := h b (by simp)
    omega
  unfold IntLit Spec.Int64
  rcases split with ⟨t, rfl⟩ | ⟨t, rfl⟩ | ⟨h1, h2⟩
  · have e : atoi (45 :: t) = if (t.isEmpty || !t.all (fun b => decide (48 ≤ b) && decide (b ≤ 57))) = true then none
        else if t.foldl (fun a b => a * 10 + (b - 48)) 0 ≤ 2^63 then some (-((t.foldl (fun a b => a * 10 + (b - 48)) 0 : Nat) : Int)) else none := rfl
    rw [e, foldl_dec, Nat.zero_mul, Nat.zero_add]
    constructor
    · intro h
      split at h
      · cases h
      · rename_i hd
        split at h
        · cases h
          refine ⟨.inr (.inr ⟨t, rfl, atoi_digits.1 (by simpa using hd), rfl⟩), ?_, ?_⟩ <;> omega
        · cases h
    · rintro ⟨⟨hd, -⟩ | ⟨ds, e, -⟩ | ⟨ds, e, hd, rfl⟩, h3, h4⟩
      · exact absurd hd (sgn _ _ (.inl rfl))
      · cases e
      · cases e
        rw [if_neg (by rw [atoi_digits.2 hd]; simp), if_pos (by omega)]
  · have e : atoi (43 :: t) = if (t.isEmpty || !t.all (fun b => decide (48 ≤ b) && decide (b ≤ 57))) = true then none
        else if t.foldl (fun a b => a * 10 + (b - 48)) 0 < 2^63 then some ((t.foldl (fun a b => a * 10 + (b - 48)) 0 : Nat) : Int) else none := rfl
    rw [e, foldl_dec, Nat.zero_mul, Nat.zero_add]
    constructor
    · intro h
      split at h
      · cases h
      · rename_i hd
        split at h
        · cases h
          refine ⟨.inr (.inl ⟨t, rfl, atoi_digits.1 (by simpa using hd), rfl⟩), ?_, ?_⟩ <;> omega
        · cases h
    · rintro ⟨⟨hd, -⟩ | ⟨ds, e, hd, rfl⟩ | ⟨ds, e, -⟩, h3, h4⟩
      · exact absurd hd (sgn _ _ (.inr rfl))
      · cases e
        rw [if_neg (by rw [atoi_digits.2 hd]; simp), if_pos (by omega)]
      · cases e
  · have e : atoi s = if (s.isEmpty || !s.all (fun b => decide (48 ≤ b) && decide (b ≤ 57))) = true then none
        else if s.foldl (fun a b => a * 10 + (b - 48)) 0 < 2^63 then some ((s.foldl (fun a b => a * 10 + (b - 48)) 0 : Nat) : Int) else none := by
      unfold atoi
      split
      · rename_i t heq; split at heq
        · rename_i t'; exact absurd rfl (h1 t')
        · rename_i t'; exact absurd rfl (h2 t')
        · cases heq; rfl
    rw [e, foldl_dec, Nat.zero_mul, Nat.zero_add]
    constructor
    · intro h
      split at h
      · cases h
      · rename_i hd
        split at h
        · cases h
          refine ⟨.inl ⟨atoi_digits.1 (by simpa using hd), rfl⟩, ?_, ?_⟩ <;> omega
        · cases h
    · rintro ⟨⟨hd, rfl⟩ | ⟨ds, rfl, -⟩ | ⟨ds, rfl, -⟩, h3, h4⟩
      · rw [if_neg (by rw [atoi_digits.2 hd]; simp), if_pos (by omega)]
      · exact absurd rfl (h2 ds)
      · exact absurd rfl (h1 ds)

section
variable {pf : Bytes → Option Nat}

/-! Values -/

theorem many_vals {lax c : Bool} {ts r : Toks} {vs : List Value} :
    Many (Val pf lax c) ts vs r ↔ Vals pf lax c ts vs r := by
  constructor
  · intro h
    induction h with
    | nil => exact .nil _
    | cons h1 _ ih => exact .cons h1 ih
  · induction vs generalizing ts with
    | nil => intro h; cases h; exact .nil _
    | cons v vs ih => intro h; cases h with | cons h1 h2 => exact .cons h1 (ih h2)

/-- One field of an object value. -/
def Fld (pf : Bytes → Option Nat) (lax c : Bool) (ts : Toks) (f : Bytes × Value) (rest : Toks) : Prop :=
  ∃ r1 r2, Nm f.1 ts r1 ∧ Pu b!":" r1 r2 ∧ Val pf lax c r2 f.2 rest

theorem many_flds {lax c : Bool} {ts r : Toks} {fs : List (Bytes × Value)} :
    Many (Fld pf lax c) ts fs r ↔ Flds pf lax c ts fs r := by
  constructor
  · intro h
    induction h with
    | nil => exact .nil _
    | @cons ts a r as rest h1 _ ih =>
      obtain ⟨r1, r2, h1, h2, h3⟩ := h1; cases a; exact .cons h1 h2 h3 ih
  · induction fs generalizing ts with
    | nil => intro h; cases h; exact .nil _
    | cons v vs ih => intro h; cases h with | cons h1 h2 h3 h4 => exact .cons ⟨_, _, h1, h2, h3⟩ (ih h4)

theorem field_sound {lax c : Bool} {p : P Value} (h : Sound p (Val pf lax c)) :
    Sound (do
        let t ← mustConsume0 .name
        let _ ← mustConsume1 .punctuator b!":"
        let v ← p
        return (t.lit, v)) (Fld pf lax c) := by
  intro ts f rest hh
  rw [bind_ok] at hh
  obtain ⟨t, r1, h1, hh⟩ := hh
  rw [mustConsume1_bind (by decide)] at hh
  obtain ⟨r2, h2, hh⟩ := hh
  rw [bind_ok] at hh
  obtain ⟨v, r3, h3, hh⟩ := hh
  obtain ⟨rfl, rfl⟩ := pure_ok.1 hh
  obtain ⟨rfl, hk⟩ := (mustConsume0_ok (by decide)).1 h1
  exact ⟨r1, r2, ⟨t, rfl, hk, rfl⟩, h2, h _ _ _ h3⟩

theorem skip1_sound {k l} (hk : k ≠ .eof := by decide) : Sound (skip1 k l) (BSkip k l) := fun _ _ _ h => (bskip_iff hk).1 h

theorem bnotPeek_sound {k l} (hk : k ≠ .eof := by decide) : Sound (notP (peek1 k l)) (BNotPeek k l) :=
  fun _ _ _ h => (bnotPeek_iff hk).1 h
theorem bpeek_sound {k l} (hk : k ≠ .eof := by decide) : Sound (peek1 k l) (BPeek k l) :=
  fun _ _ _ h => (bpeek_iff hk).1 h
theorem bpeekEof_sound {k l} (hk : k ≠ .eof := by decide) : Sound (orP (peek1 k l) (peek0 .eof)) (BPeekEof k l) :=
  fun _ _ _ h => (bpeekEof_iff hk).1 h
theorem bsep_sound {k l} (hk : k ≠ .eof := by decide) : Sound (notP (skip1 k l)) (BSep k l) :=
  fun _ _ _ h => (bsep_iff hk).1 h

theorem parseValue_sound (n : Nat) (c : Bool) : Sound (parseValue pf n) (Val pf true c) := by
  induction n with
  | zero => intro ts v rest h; exact (oof_ok.1 h).elim
  | succ n ih =>
    intro ts v rest h
    rw [parseValue, skip1_bind (by decide)] at h
    rcases h with ⟨r, h1, h⟩ | ⟨hn1, h⟩
    · simp only [if_true] at h
      rw [bind_ok] at h
      obtain ⟨t, r1, h2, h⟩ := h
      obtain ⟨rfl, rfl⟩ := pure_ok.1 h
      obtain ⟨rfl, hk⟩ := (mustConsume0_ok (by decide)).1 h2
      exact .var (.inr rfl) h1 ⟨t, rfl, hk, rfl⟩
    simp only [Bool.false_eq_true, if_false] at h
    rw [bind_ok] at h
    obtain ⟨o, r, h1, h⟩ := h
    rcases (consume0_ok (by decide)).1 h1 with ⟨t, rfl, rfl, hk⟩ | ⟨rfl, hn2, rfl⟩
    · simp only at h
      cases e : atoi t.lit with
      | none => rw [e] at h; exact (fail_ok.1 h).elim
      | some i =>
        rw [e] at h; obtain ⟨rfl, rfl⟩ := pure_ok.1 h
        have := atoi_iff.1 e
        exact .int ⟨t, rfl, hk, rfl⟩ this.1 this.2
    simp only at h
    rw [bind_ok] at h
    obtain ⟨o, r, h1, h⟩ := h
    rcases (consume0_ok (by decide)).1 h1 with ⟨t, rfl, rfl, hk⟩ | ⟨rfl, hn3, rfl⟩
    · simp only at h
      cases e : pf t.lit with
      | none => rw [e] at h; exact (fail_ok.1 h).elim
      | some i =>
        rw [e] at h; obtain ⟨rfl, rfl⟩ := pure_ok.1 h
        exact .float ⟨t, rfl, hk, rfl⟩ e
    simp only at h
    rw [bind_ok] at h
    obtain ⟨o, r, h1, h⟩ := h
    rcases (consume0_ok (by decide)).1 h1 with ⟨t, rfl, rfl, hk⟩ | ⟨rfl, hn4, rfl⟩
    · simp only at h
      obtain ⟨rfl, rfl⟩ := pure_ok.1 h
      exact .str ⟨t, rfl, hk, rfl⟩
    simp only at h
    rw [bind_ok] at h
    obtain ⟨o, r, h1, h⟩ := h
    rcases (consumen_ok (by decide) (by simp)).1 h1 with ⟨t, rfl, rfl, hk, hl⟩ | ⟨rfl, hn5, rfl⟩
    · simp only at h
      obtain ⟨rfl, rfl⟩ := pure_ok.1 h
      simp only [List.mem_cons, List.not_mem_nil, or_false] at hl
      rcases hl with hl | hl
      · rw [hl]; exact .tru ⟨t, rfl, hk, hl⟩
      · rw [hl]; exact .fls ⟨t, rfl, hk, hl⟩
    simp only at h
    rw [skip1_bind (by decide)] at h
    rcases h with ⟨r, h1, h⟩ | ⟨hn6, h⟩
    · simp only [if_true] at h
      obtain ⟨rfl, rfl⟩ := pure_ok.1 h
      exact .null h1
    simp only [Bool.false_eq_true, if_false] at h
    rw [bind_ok] at h
    obtain ⟨o, r, h1, h⟩ := h
    rcases (consume0_ok (by decide)).1 h1 with ⟨t, rfl, rfl, hk⟩ | ⟨rfl, hn7, rfl⟩
    · simp only at h
      obtain ⟨rfl, rfl⟩ := pure_ok.1 h
      exact .enum ⟨t, rfl, hk, rfl⟩
        (fun e => hn5 b!"true" (by simp) _ ⟨t, rfl, hk, e⟩)
        (fun e => hn5 b!"false" (by simp) _ ⟨t, rfl, hk, e⟩)
        (fun e => hn6 _ ⟨t, rfl, hk, e⟩)
    simp only at h
    rw [skip1_bind (by decide)] at h
    rcases h with ⟨r, h1, h⟩ | ⟨hn8, h⟩
    · simp only [if_true] at h
      rw [bind_ok] at h
      obtain ⟨vs, r1, h2, h⟩ := h
      obtain ⟨rfl, rfl⟩ := pure_ok.1 h
      obtain ⟨r2, h3, h4⟩ := uloop_skip_many (untilDo_sound ih skip1_sound _ _ _ h2)
      exact .list h1 (many_vals.1 h3) h4
    simp only [Bool.false_eq_true, if_false] at h
    rw [skip1_bind (by decide)] at h
    rcases h with ⟨r, h1, h⟩ | ⟨hn9, h⟩
    · simp only [if_true] at h
      rw [bind_ok] at h
      obtain ⟨vs, r1, h2, h⟩ := h
      obtain ⟨rfl, rfl⟩ := pure_ok.1 h
      obtain ⟨r2, h3, h4⟩ := uloop_skip_many (untilDo_sound (field_sound ih) skip1_sound _ _ _ h2)
      exact .obj h1 (many_flds.1 h3) h4
    · simp only [Bool.false_eq_true, if_false] at h
      exact (fail_ok.1 h).elim

theorem parseDefaultValue_sound (n : Nat) : Sound (parseDefaultValue pf n) (Default pf true) := by
  intro ts v rest h
  rw [parseDefaultValue, skip1_bind (by decide)] at h
  rcases h with ⟨r, h1, h⟩ | ⟨hn, h⟩
  · simp only [if_true] at h
    rw [bind_ok] at h
    obtain ⟨v, r1, h2, h⟩ := h
    obtain ⟨rfl, rfl⟩ := pure_ok.1 h
    exact .some h1 (parseValue_sound n true _ _ _ h2)
  · simp only [Bool.false_eq_true, if_false] at h
    obtain ⟨rfl, rfl⟩ := pure_ok.1 h
    exact .none hn

theorem parseArguments_sound (n : Nat) (c : Bool) : Sound (parseArguments pf n) (Args pf true c) := by
  intro ts v rest h
  rw [parseArguments, skip1_bind (by decide)] at h
  rcases h with ⟨r, h1, h⟩ | ⟨hn, h⟩
  · simp only [if_true] at h
    have hb : Sound (do
        let t ← mustConsume0 .name
        let _ ← mustConsume1 .punctuator b!":"
        let v ← parseValue pf n
        return (⟨t.lit, v⟩ : Argument)) (Arg pf true c) := by
      intro ts f rest hh
      rw [bind_ok] at hh
      obtain ⟨t, r1, h1, hh⟩ := hh
      rw [mustConsume1_bind (by decide)] at hh
      obtain ⟨r2, h2, hh⟩ := hh
      rw [bind_ok] at hh
      obtain ⟨v, r3, h3, hh⟩ := hh
      obtain ⟨rfl, rfl⟩ := pure_ok.1 hh
      obtain ⟨rfl, hk⟩ := (mustConsume0_ok (by decide)).1 h1
      exact .mk ⟨t, rfl, hk, rfl⟩ h2 (parseValue_sound n c _ _ _ h3)
    obtain ⟨r2, h3, h4⟩ := uloop_skip_many (untilDo_sound hb skip1_sound _ _ _ h)
    exact .some h1 h3 h4 (.inr rfl)
  · simp only [Bool.false_eq_true, if_false] at h
    obtain ⟨rfl, rfl⟩ := pure_ok.1 h
    exact .none hn

theorem parseDirectives_sound (n : Nat) (c : Bool) (loc : DirLoc) :
    Sound (parseDirectives pf n loc) (Dirs pf true c loc) := by
  intro ts v rest h
  have hb : Sound (do
      let _ ← mustConsume1 .punctuator b!"@"
      let t ← mustConsume0 .name
      let args ← parseArguments pf n
      return (⟨t.lit, args, loc⟩ : Directive)) (Dir pf true c loc) := by
    intro ts f rest hh
    rw [mustConsume1_bind (by decide)] at hh
    obtain ⟨r2, h2, hh⟩ := hh
    rw [bind_ok] at hh
    obtain ⟨t, r1, h1, hh⟩ := hh
    rw [bind_ok] at hh
    obtain ⟨v, r3, h3, hh⟩ := hh
    obtain ⟨rfl, rfl⟩ := pure_ok.1 hh
    obtain ⟨rfl, hk⟩ := (mustConsume0_ok (by decide)).1 h1
    exact .mk h2 ⟨t, rfl, hk, rfl⟩ (parseArguments_sound n c _ _ _ h3)
  exact uloop_peek_many (untilDo_sound hb bnotPeek_sound _ _ _ h)

/-! Types -/

theorem bang_of_skip {ts rest : Toks} {b : Bool} (h : skip1 .punctuator b!"!" ts = .ok b rest) : Bang ts b rest :=
  (skip1_ok (by decide)).1 h

theorem notKind_of_mustConsume0 {k : TokenKind} (hk : k ≠ .eof) {ts r : Toks} {e : PErr}
    (h : mustConsume0 k ts = .err e r) : NotKind k ts ∧ r = ts := by
  rw [notKind_iff hk]
  unfold mustConsume0 at h
  rw [bind_eq (cur_eq ts)] at h
  by_cases hh : (hd ts).kind = k
  · rw [if_neg (by simpa using hh), bind_eq (show advance ts = .ok () ts.tail from rfl)] at h
    cases h
  · rw [if_pos hh] at h
    cases h; exact ⟨hh, rfl⟩

theorem mustConsume1_err {k : TokenKind} (hk : k ≠ .eof) {l : Bytes} {ts r : Toks} {e : PErr}
    (h : mustConsume1 k l ts = .err e r) : NotNext1 k l ts ∧ r = ts := by
  rw [notNext1_iff hk]
  unfold mustConsume1 at h
  rw [bind_eq (cur_eq ts)] at h
  by_cases hh : (hd ts).kind = k ∧ (hd ts).lit = l
  · rw [if_neg (by simpa using hh), bind_eq (show advance ts = .ok () ts.tail from rfl)] at h
    cases h
  · rw [if_pos (by simpa [Classical.or_iff_not_imp_left] using hh)] at h
    cases h; exact ⟨hh, rfl⟩

theorem bind_err {α β : Type} {p : P α} {f : α → P β} {ts rest : Toks} {er : PErr} :
    (p >>= f) ts = .err er rest ↔ p ts = .err er rest ∨ ∃ a r, p ts = .ok a r ∧ f a r = .err er rest := by
  show P.bind p f ts = _ ↔ _
  unfold P.bind
  cases e : p ts with
  | ok a r => exact ⟨fun h => .inr ⟨a, r, rfl, h⟩, by
      rintro (h | ⟨_, _, h1, h2⟩)
      · cases h
      · cases h1; exact h2⟩
  | err e r => 
    constructor
    · intro h; cases h; exact .inl rfl
    · rintro (h | ⟨_, _, h1, h2⟩)
      · cases h; rfl
      · cases h1
  | panic => simp
  | oof => simp

theorem skip1_not_err {k : TokenKind} {l : Bytes} {ts r : Toks} {e : PErr} : skip1 k l ts ≠ .err e r := by
  unfold skip1
  rw [bind_eq (cur_eq ts)]
  split
  · intro h; cases h
  · intro h; cases h

theorem parseType_sound' (n : Nat) : Sound (parseType n) (TypeRef true) ∧
    ∀ ts e rest, parseType n ts = .err e rest → TypeStuck true ts rest := by
  induction n with
  | zero => exact ⟨fun ts v rest h => (oof_ok.1 h).elim, fun ts e rest h => by cases h⟩
  | succ n ih =>
    constructor
    · intro ts v rest h
      rw [parseType, skip1_bind (by decide)] at h
      rcases h with ⟨r, h1, h⟩ | ⟨hn1, h⟩
      · change (match parseType n r with | .err _ r => _ | .panic => _ | .oof => _ | .ok t r => _) = _ at h
        cases e : parseType n r with
        | panic => rw [e] at h; cases h
        | oof => rw [e] at h; cases h
        | err er r' => rw [e] at h; cases h; exact .broken rfl h1 (ih.2 _ _ _ e)
        | ok t r' =>
          rw [e] at h; simp only at h
          rw [mustConsume1_bind (by decide)] at h
          obtain ⟨r2, h2, h⟩ := h
          rw [bind_ok] at h
          obtain ⟨b, r3, h3, h⟩ := h
          obtain ⟨rfl, rfl⟩ := pure_ok.1 h
          exact .list h1 (ih.1 _ _ _ e) h2 (bang_of_skip h3)
      · change (mustConsume0 .name >>= _) _ = _ at h
        rw [bind_ok] at h
        obtain ⟨t, r1, h2, h⟩ := h
        rw [bind_ok] at h
        obtain ⟨b, r3, h3, h⟩ := h
        obtain ⟨rfl, rfl⟩ := pure_ok.1 h
        obtain ⟨rfl, hk⟩ := (mustConsume0_ok (by decide)).1 h2
        exact .named ⟨t, rfl, hk, rfl⟩ (bang_of_skip h3)
    · intro ts e rest h
      rw [parseType, bind_err] at h
      rcases h with h | ⟨b, r, h0, h⟩
      · exact absurd h skip1_not_err
      rcases (skip1_ok (by decide)).1 h0 with ⟨rfl, h1⟩ | ⟨rfl, h1, rfl⟩
      · change (match parseType n r with | .err _ r => _ | .panic => _ | .oof => _ | .ok t r => _) = _ at h
        cases e : parseType n r with
        | panic => rw [e] at h; cases h
        | oof => rw [e] at h; cases h
        | err er r' => rw [e] at h; cases h
        | ok t r' =>
          rw [e] at h; simp only at h
          rw [bind_err] at h
          rcases h with h | ⟨_, r2, -, h⟩
          · obtain ⟨h2, rfl⟩ := mustConsume1_err (by decide) h
            exact .unclosed h1 (ih.1 _ _ _ e) h2
          · rw [bind_err] at h
            rcases h with h | ⟨_, r2, -, h⟩
            · exact absurd h skip1_not_err
            · cases h
      · change (mustConsume0 .name >>= _) _ = _ at h
        rw [bind_err] at h
        rcases h with h | ⟨_, r2, -, h⟩
        · obtain ⟨h2, rfl⟩ := notKind_of_mustConsume0 (by decide) h
          exact .start h2 h1
        · rw [bind_err] at h
          rcases h with h | ⟨_, r2, -, h⟩
          · exact absurd h skip1_not_err
          · cases h

theorem parseType_sound (n : Nat) : Sound (parseType n) (TypeRef true) := (parseType_sound' n).1

theorem mustBeNamed_ok {t : Ty} {ts rest : Toks} : mustBeNamed t ts = .ok () rest ↔ rest = ts ∧ ∃ n b, t = .named n b := by
  unfold mustBeNamed
  cases t with
  | named n b =>
    simp only [pure_ok]
    exact ⟨fun h => ⟨h.2.symm, n, b, rfl⟩, fun h => ⟨trivial, h.1.symm⟩⟩
  | list t b => simp only [unexpectedCur_ok]; exact ⟨False.elim, by rintro ⟨-, n, b, h⟩; cases h⟩
  | listNil b => simp only [unexpectedCur_ok]; exact ⟨False.elim, by rintro ⟨-, n, b, h⟩; cases h⟩

theorem namedType_of {ts rest : Toks} {t : Ty} (h : TypeRef true ts t rest) (hn : ∃ n b, t = .named n b) :
    NamedType true ts t rest := by
  obtain ⟨n, b, rfl⟩ := hn
  cases h with
  | named h1 h2 => exact .mk h1 h2 (.inr rfl)

theorem parseTypeCondition_sound (n : Nat) : Sound (parseTypeCondition n) (TypeCond true) := by
  intro ts t rest h
  rw [parseTypeCondition, mustConsume1_bind (by decide)] at h
  obtain ⟨r2, h2, h⟩ := h
  rw [bind_ok] at h
  obtain ⟨t', r, h1, h⟩ := h
  rw [bind_ok] at h
  obtain ⟨_, r', h3, h⟩ := h
  obtain ⟨rfl, rfl⟩ := pure_ok.1 h
  obtain ⟨rfl, hn⟩ := mustBeNamed_ok.1 h3
  exact .mk h2 (namedType_of (parseType_sound n _ _ _ h1) hn)

/-! Selections -/

theorem fieldName_sound : Sound (do
    let t ← mustConsume0 .name
    if ← skip1 .punctuator b!":" then
      let t2 ← mustConsume0 .name
      return (t.lit, t2.lit)
    else return (([] : Bytes), t.lit)) FieldName := by
  intro ts a rest h
  rw [bind_ok] at h
  obtain ⟨t, r, h1, h⟩ := h
  obtain ⟨rfl, hk⟩ := (mustConsume0_ok (by decide)).1 h1
  rw [skip1_bind (by decide)] at h
  rcases h with ⟨r1, h2, h⟩ | ⟨hn, h⟩
  · simp only [if_true] at h
    rw [bind_ok] at h
    obtain ⟨t2, r2, h3, h⟩ := h
    obtain ⟨rfl, hk2⟩ := (mustConsume0_ok (by decide)).1 h3
    obtain ⟨rfl, rfl⟩ := pure_ok.1 h
    exact .alias ⟨t, rfl, hk, rfl⟩ h2 ⟨t2, rfl, hk2, rfl⟩
  · simp only [Bool.false_eq_true, if_false] at h
    obtain ⟨rfl, rfl⟩ := pure_ok.1 h
    exact .plain ⟨t, rfl, hk, rfl⟩ hn

/-- An optional selection set. -/
def OptSelSet (pf : Bytes → Option Nat) (lax : Bool) (ts : Toks) (ss : List Selection) (rest : Toks) : Prop :=
  SelSet pf lax ts ss rest ∨ (ss = [] ∧ NotNext1 .punctuator b!"{" ts ∧ rest = ts)

theorem parseField_sound (n : Nat) {sel : P (List Selection)} (hs : Sound sel (OptSelSet pf true)) :
    Sound (parseField pf n sel) (Sel pf true) := by
  intro ts s rest h
  rw [parseField, bind_ok] at h
  obtain ⟨t, r, h1, h⟩ := h
  rw [bind_ok] at h
  obtain ⟨⟨a, nm⟩, r1, h2, h⟩ := h
  have hf := fieldName_sound ts (a, nm) r1 (by rw [bind_eq h1]; exact h2)
  simp only at h
  rw [bind_ok] at h
  obtain ⟨as, r2, h3, h⟩ := h
  rw [bind_ok] at h
  obtain ⟨ds, r3, h4, h⟩ := h
  rw [bind_ok] at h
  obtain ⟨ss, r4, h5, h⟩ := h
  obtain ⟨rfl, rfl⟩ := pure_ok.1 h
  have h3 := parseArguments_sound n false _ _ _ h3
  have h4 := parseDirectives_sound n false _ _ _ _ h4
  rcases hs _ _ _ h5 with h5 | ⟨rfl, h5, rfl⟩
  · exact .node hf h3 h4 h5
  · exact .leaf hf h3 h4 h5

theorem parseInlineFragment_sound (n : Nat) {sel : P (List Selection)} (hs : Sound sel (SelSet pf true))
    {ts r rest : Toks} {s : Selection} (h0 : Pu b!"..." ts r) (h : parseInlineFragment pf n sel r = .ok s rest) :
    Sel pf true ts s rest := by
  rw [parseInlineFragment, bind_ok] at h
  obtain ⟨c, r1, h1, h⟩ := h
  rw [bind_ok] at h
  obtain ⟨ds, r3, h4, h⟩ := h
  rw [bind_ok] at h
  obtain ⟨ss, r4, h5, h⟩ := h
  obtain ⟨rfl, rfl⟩ := pure_ok.1 h
  refine .inline h0 ?_ (parseDirectives_sound n false _ _ _ _ h4) (hs _ _ _ h5)
  rw [bind_ok] at h1
  obtain ⟨b, r2, h2, h1⟩ := h1
  obtain ⟨rfl, ⟨rfl, -⟩ | ⟨rfl, h2'⟩⟩ := (peek1_ok (by decide)).1 h2
  · simp only [if_true] at h1
    rw [bind_ok] at h1
    obtain ⟨t, r3, h3, h1⟩ := h1
    obtain ⟨rfl, rfl⟩ := pure_ok.1 h1
    exact .some (parseTypeCondition_sound n _ _ _ h3)
  · simp only [Bool.false_eq_true, if_false] at h1
    obtain ⟨rfl, rfl⟩ := pure_ok.1 h1
    exact .none h2'

theorem sels_of_many {lax : Bool} {ts rest : Toks} {ss : List Selection} (h : Many (Sel pf lax) ts ss rest) (hne : ss ≠ []) :
    Sels pf lax ts ss rest := by
  induction h with
  | nil => exact absurd rfl hne
  | cons h1 h2 ih =>
    cases h2 with
    | nil => exact .one h1
    | cons h3 h4 => exact .cons h1 (ih (by simp))

theorem many_of_sels {lax : Bool} {ss : List Selection} {ts rest : Toks} (h : Sels pf lax ts ss rest) :
    Many (Sel pf lax) ts ss rest ∧ ss ≠ [] := by
  induction ss generalizing ts with
  | nil => cases h
  | cons s ss ih =>
    cases h with
    | one h => exact ⟨.cons h (.nil _), by simp⟩
    | cons h1 h2 => exact ⟨.cons h1 (ih h2).1, by simp⟩

theorem parseSelection_sound' (n : Nat) {sel osel : P (List Selection)} (h01 : Sound sel (SelSet pf true))
    (h02 : Sound osel (OptSelSet pf true)) :
    Sound (do
        if ← skip1 .punctuator b!"..." then
          let t ← cur
          if t.kind = .name ∧ t.lit ≠ b!"on" then parseFragmentSpread pf n
          else parseInlineFragment pf n sel
        else parseField pf n osel) (Sel pf true) := by
  intro ts s rest h
  rw [skip1_bind (by decide)] at h
  rcases h with ⟨r, h1, h⟩ | ⟨hn1, h⟩
  · simp only [if_true] at h
    rw [bind_eq (cur_eq _)] at h
    split at h
    · rename_i hh
      rw [parseFragmentSpread, bind_ok] at h
      obtain ⟨t, r1, h2, h⟩ := h
      rw [bind_ok] at h
      obtain ⟨ds, r2, h3, h⟩ := h
      obtain ⟨rfl, rfl⟩ := pure_ok.1 h
      obtain ⟨rfl, hk⟩ := (mustConsume0_ok (by decide)).1 h2
      exact .spread h1 ⟨t, rfl, hk, rfl⟩ hh.2 (parseDirectives_sound n false _ _ _ _ h3)
    · exact parseInlineFragment_sound n h01 h1 h
  · simp only [Bool.false_eq_true, if_false] at h
    exact parseField_sound n h02 _ _ _ h

theorem parseSelectionSet_sound (n : Nat) :
    Sound (parseSelectionSet pf n false) (SelSet pf true) ∧ Sound (parseSelectionSet pf n true) (OptSelSet pf true) := by
  induction n with
  | zero => exact ⟨fun ts v rest h => (oof_ok.1 h).elim, fun ts e rest h => by cases h⟩
  | succ n ih =>
    have key : ∀ o ts ss rest, parseSelectionSet pf (n + 1) o ts = .ok ss rest →
        SelSet pf true ts ss rest ∨ (o = true ∧ ss = [] ∧ NotNext1 .punctuator b!"{" ts ∧ rest = ts) := by
      intro o ts ss rest h
      rw [parseSelectionSet, skip1_bind (by decide)] at h
      rcases h with ⟨r, h1, h⟩ | ⟨hn1, h⟩
      · left
        simp only [if_true] at h
        rw [bind_ok] at h
        obtain ⟨ss', r1, h2, h⟩ := h
        rw [mustConsume1_bind (by decide)] at h
        obtain ⟨r2, h3, h⟩ := h
        obtain ⟨rfl, rfl⟩ := pure_ok.1 h
        have := rloop_peekEof_many (doWhile_sound (parseSelection_sound' n ih.1 ih.2) bpeekEof_sound _ _ _ h2)
        exact .mk h1 (sels_of_many this.1 this.2) h3
      · simp only [Bool.false_eq_true, if_false] at h
        cases o with
        | false => exact (unexpectedCur_ok.1 h).elim
        | true =>
          simp only [if_true] at h
          obtain ⟨rfl, rfl⟩ := pure_ok.1 h
          exact .inr ⟨rfl, rfl, hn1, rfl⟩
    constructor
    · intro ts ss rest h
      rcases key _ _ _ _ h with h | ⟨h, -⟩
      · exact h
      · cases h
    · intro ts ss rest h
      rcases key _ _ _ _ h with h | ⟨-, h⟩
      · exact .inl h
      · exact .inr h

theorem parseSelection_sound (n : Nat) : Sound (do
        if ← skip1 .punctuator b!"..." then
          let t ← cur
          if t.kind = .name ∧ t.lit ≠ b!"on" then parseFragmentSpread pf n
          else parseInlineFragment pf n (parseSelectionSet pf n false)
        else parseField pf n (parseSelectionSet pf n true)) (Sel pf true) :=
  parseSelection_sound' n (parseSelectionSet_sound n).1 (parseSelectionSet_sound n).2

/-! Executable definitions -/

theorem parseVariableDefinitions_sound (n : Nat) : Sound (parseVariableDefinitions pf n) (VarDefns pf true) := by
  intro ts ds rest h
  rw [parseVariableDefinitions, skip1_bind (by decide)] at h
  rcases h with ⟨r, h1, h⟩ | ⟨hn1, h⟩
  · simp only [if_true] at h
    rw [bind_ok] at h
    obtain ⟨ds', r1, h2, h⟩ := h
    rw [mustConsume1_bind (by decide)] at h
    obtain ⟨r2, h3, h⟩ := h
    obtain ⟨rfl, rfl⟩ := pure_ok.1 h
    have := rloop_peek_many (doWhile_sound (R := VarDefn pf true) ?_ bpeek_sound _ _ _ h2)
    · exact .some h1 this.1 this.2 h3
    · intro ts d rest h
      rw [mustConsume1_bind (by decide)] at h
      obtain ⟨r1, h1, h⟩ := h
      rw [bind_ok] at h
      obtain ⟨t, r2, h2, h⟩ := h
      rw [mustConsume1_bind (by decide)] at h
      obtain ⟨r3, h3, h⟩ := h
      rw [bind_ok] at h
      obtain ⟨ty, r4, h4, h⟩ := h
      rw [bind_ok] at h
      obtain ⟨dv, r5, h5, h⟩ := h
      obtain ⟨rfl, rfl⟩ := pure_ok.1 h
      obtain ⟨rfl, hk⟩ := (mustConsume0_ok (by decide)).1 h2
      exact .mk h1 ⟨t, rfl, hk, rfl⟩ h3 (parseType_sound n _ _ _ h4) (parseDefaultValue_sound n _ _ _ h5)
  · simp only [Bool.false_eq_true, if_false] at h
    obtain ⟨rfl, rfl⟩ := pure_ok.1 h
    exact .none hn1

theorem parseOperationType_sound : Sound parseOperationType OpType := by
  intro ts k rest h
  rw [parseOperationType, bind_ok] at h
  obtain ⟨t, r, h1, h⟩ := h
  obtain ⟨rfl, rfl⟩ := pure_ok.1 h
  obtain ⟨rfl, hk, hl⟩ := (mustConsumen_ok (by decide) (by simp)).1 h1
  simp only [List.mem_cons, List.not_mem_nil, or_false] at hl
  rcases hl with hl | hl | hl
  · rw [if_pos hl]; exact .query ⟨t, rfl, hk, hl⟩
  · rw [if_neg (by rw [hl]; decide), if_pos hl]; exact .mutation ⟨t, rfl, hk, hl⟩
  · rw [if_neg (by rw [hl]; decide), if_neg (by rw [hl]; decide)]; exact .subscription ⟨t, rfl, hk, hl⟩

theorem consume0_opt {k : TokenKind} (hk : k ≠ .eof) {ts rest : Toks} {o : Option Token}
    (h : consume0 k ts = .ok o rest) : OptTok k ts ((o.map (·.lit)).getD []) rest := by
  rcases (consume0_ok hk).1 h with ⟨t, rfl, rfl, h'⟩ | ⟨rfl, h', rfl⟩
  · exact .inl ⟨t, rfl, h', rfl⟩
  · exact .inr ⟨rfl, h', rfl⟩

theorem opLoc_eq (k : OpKind) : k.loc = opLoc k := by cases k <;> rfl

theorem parseOperationDefinition_sound (n : Nat) (b : Bool) : Sound (parseOperationDefinition pf n b) (OpDefn pf true) := by
  intro ts o rest h
  rw [parseOperationDefinition] at h
  cases b with
  | true =>
    simp only [if_true] at h
    rw [bind_ok] at h
    obtain ⟨ss, r, h1, h⟩ := h
    obtain ⟨rfl, rfl⟩ := pure_ok.1 h
    exact .shorthand ((parseSelectionSet_sound n).1 _ _ _ h1)
  | false =>
    simp only [Bool.false_eq_true, if_false] at h
    rw [bind_ok] at h
    obtain ⟨k, r, h1, h⟩ := h
    rw [bind_ok] at h
    obtain ⟨nm, r1, h2, h⟩ := h
    rw [bind_ok] at h
    obtain ⟨vs, r2, h3, h⟩ := h
    rw [bind_ok] at h
    obtain ⟨ds, r3, h4, h⟩ := h
    rw [bind_ok] at h
    obtain ⟨ss, r4, h5, h⟩ := h
    obtain ⟨rfl, rfl⟩ := pure_ok.1 h
    rw [opLoc_eq] at h4
    exact .full (parseOperationType_sound _ _ _ h1) (consume0_opt (by decide) h2)
      (parseVariableDefinitions_sound n _ _ _ h3) (parseDirectives_sound n false _ _ _ _ h4)
      ((parseSelectionSet_sound n).1 _ _ _ h5)

theorem parseFragmentDefinition_sound (n : Nat) : Sound (parseFragmentDefinition pf n) (FragDefn pf true) := by
  intro ts f rest h
  rw [parseFragmentDefinition, skip1_bind (by decide)] at h
  rcases h with ⟨r, h1, h⟩ | ⟨hn1, h⟩
  · simp only [if_true] at h
    rw [bind_ok] at h
    obtain ⟨o, r1, h2, h⟩ := h
    rcases (consume0_ok (by decide)).1 h2 with ⟨t, rfl, rfl, hk⟩ | ⟨rfl, -, rfl⟩
    · simp only at h
      split at h
      · exact (unexpectedCur_ok.1 h).elim
      · rename_i hne
        rw [bind_ok] at h
        obtain ⟨c, r2, h3, h⟩ := h
        rw [bind_ok] at h
        obtain ⟨ds, r3, h4, h⟩ := h
        rw [bind_ok] at h
        obtain ⟨ss, r4, h5, h⟩ := h
        obtain ⟨rfl, rfl⟩ := pure_ok.1 h
        exact .mk h1 ⟨t, rfl, hk, rfl⟩ hne (parseTypeCondition_sound n _ _ _ h3)
          (parseDirectives_sound n false _ _ _ _ h4) ((parseSelectionSet_sound n).1 _ _ _ h5)
    · exact (crash_ok.1 h).elim
  · rw [if_neg (by decide)] at h; exact (crash_ok.1 h).elim

/-! Type system definitions -/

theorem parseOperationTypeDefinition_sound (n : Nat) : Sound (parseOperationTypeDefinition n) (OpTypeDefn true) := by
  intro ts d rest h
  rw [parseOperationTypeDefinition, bind_ok] at h
  obtain ⟨k, r, h1, h⟩ := h
  rw [skip1_bind (by decide)] at h
  rcases h with ⟨r1, h2, h⟩ | ⟨hn1, h⟩
  · simp only [if_true] at h
    rw [bind_ok] at h
    obtain ⟨t, r2, h3, h⟩ := h
    rw [bind_ok] at h
    obtain ⟨_, r3, h4, h⟩ := h
    obtain ⟨rfl, rfl⟩ := pure_ok.1 h
    obtain ⟨rfl, hn⟩ := mustBeNamed_ok.1 h4
    exact .mk (parseOperationType_sound _ _ _ h1) h2 (namedType_of (parseType_sound n _ _ _ h3) hn)
  · exact (unexpectedCur_ok.1 h).elim

theorem parseOperationTypeDefinitions_sound (n : Nat) : Sound (parseOperationTypeDefinitions n) (OpTypeDefns true) := by
  intro ts d rest h
  rw [parseOperationTypeDefinitions, skip1_bind (by decide)] at h
  rcases h with ⟨r1, h2, h⟩ | ⟨hn1, h⟩
  · simp only [if_true] at h
    rw [bind_ok] at h
    obtain ⟨ops, r2, h3, h⟩ := h
    rw [mustConsume1_bind (by decide)] at h
    obtain ⟨r3, h4, h⟩ := h
    obtain ⟨rfl, rfl⟩ := pure_ok.1 h
    have := rloop_peekEof_many (doWhile_sound (parseOperationTypeDefinition_sound n) bpeekEof_sound _ _ _ h3)
    exact .mk h2 this.1 this.2 h4
  · exact (unexpectedCur_ok.1 h).elim

theorem parseSchemaDefinition_sound (n : Nat) : Sound (parseSchemaDefinition pf n) (SchemaDefn pf true) := by
  intro ts d rest h
  rw [parseSchemaDefinition, skip1_bind (by decide)] at h
  rcases h with ⟨r1, h2, h⟩ | ⟨hn1, h⟩
  · simp only [if_true] at h
    rw [bind_ok] at h
    obtain ⟨ds, r2, h3, h⟩ := h
    rw [bind_ok] at h
    obtain ⟨ops, r3, h4, h⟩ := h
    obtain ⟨rfl, rfl⟩ := pure_ok.1 h
    exact .mk h2 (parseDirectives_sound n true _ _ _ _ h3) (parseOperationTypeDefinitions_sound n _ _ _ h4)
  · exact (unexpectedCur_ok.1 h).elim

theorem parseSchemaExtension_sound (n : Nat) : Sound (parseSchemaExtension pf n) (SchemaExtn pf true) := by
  intro ts d rest h
  rw [parseSchemaExtension, skip1_bind (by decide)] at h
  rcases h with ⟨r1, h2, h⟩ | ⟨hn1, h⟩
  · simp only [if_true] at h
    rw [bind_ok] at h
    obtain ⟨ds, r2, h3, h⟩ := h
    rw [bind_ok] at h
    obtain ⟨ops, r3, h4, h⟩ := h
    have h3 := parseDirectives_sound n true _ _ _ _ h3
    rw [bind_ok] at h4
    obtain ⟨b, r4, h5, h4⟩ := h4
    split at h
    · exact (unexpectedCur_ok.1 h).elim
    · rename_i hne
      obtain ⟨rfl, rfl⟩ := pure_ok.1 h
      obtain ⟨rfl, ⟨rfl, -⟩ | ⟨rfl, h5'⟩⟩ := (peek1_ok (by decide)).1 h5
      · simp only [if_true] at h4
        exact .ops h2 h3 (parseOperationTypeDefinitions_sound n _ _ _ h4)
      · simp only [Bool.false_eq_true, if_false] at h4
        obtain ⟨rfl, rfl⟩ := pure_ok.1 h4
        exact .dirs h2 h3 (by rintro rfl; simp at hne) h5'
  · exact (unexpectedCur_ok.1 h).elim

theorem parseInputValueDefinition_sound (n : Nat) (loc : DirLoc) :
    Sound (parseInputValueDefinition pf n loc) (InputValue pf true loc) := by
  intro ts d rest h
  rw [parseInputValueDefinition, bind_ok] at h
  obtain ⟨o, r, h1, h⟩ := h
  rw [bind_ok] at h
  obtain ⟨t, r1, h2, h⟩ := h
  rw [skip1_bind (by decide)] at h
  rcases h with ⟨r2, h3, h⟩ | ⟨hn1, h⟩
  · simp only [if_true] at h
    rw [bind_ok] at h
    obtain ⟨ty, r3, h4, h⟩ := h
    rw [bind_ok] at h
    obtain ⟨dv, r4, h5, h⟩ := h
    rw [bind_ok] at h
    obtain ⟨ds, r5, h6, h⟩ := h
    obtain ⟨rfl, rfl⟩ := pure_ok.1 h
    obtain ⟨rfl, hk⟩ := (mustConsume0_ok (by decide)).1 h2
    exact .mk (consume0_opt (by decide) h1) ⟨t, rfl, hk, rfl⟩ h3 (parseType_sound n _ _ _ h4)
      (parseDefaultValue_sound n _ _ _ h5) (parseDirectives_sound n true _ _ _ _ h6)
  · exact (unexpectedCur_ok.1 h).elim

theorem parseArgumentsDefinition_sound (n : Nat) : Sound (parseArgumentsDefinition pf n) (ArgsDef pf true) := by
  intro ts ds rest h
  rw [parseArgumentsDefinition, skip1_bind (by decide)] at h
  rcases h with ⟨r, h1, h⟩ | ⟨hn1, h⟩
  · simp only [if_true] at h
    rw [bind_ok] at h
    obtain ⟨ds', r1, h2, h⟩ := h
    rw [mustConsume1_bind (by decide)] at h
    obtain ⟨r2, h3, h⟩ := h
    obtain ⟨rfl, rfl⟩ := pure_ok.1 h
    have := rloop_peekEof_many (doWhile_sound (parseInputValueDefinition_sound n _) bpeekEof_sound _ _ _ h2)
    exact .some h1 this.1 this.2 h3
  · simp only [Bool.false_eq_true, if_false] at h
    obtain ⟨rfl, rfl⟩ := pure_ok.1 h
    exact .none hn1

theorem locByName_name (l : DirLoc) : locByName l.name = l.bit := by cases l <;> decide

theorem skip1_optPu {l : Bytes} {ts rest : Toks} {b : Bool} (h : skip1 .punctuator l ts = .ok b rest) : OptPu l ts rest := by
  rcases (skip1_ok (by decide)).1 h with ⟨-, h⟩ | ⟨-, h, rfl⟩
  · exact .inl h
  · exact .inr ⟨h, rfl⟩

/-- A token that is the name of a location. -/
def LocTok (ts : Toks) (t : Token) (rest : Toks) : Prop := ts = t :: rest ∧ t.kind = .name ∧ t.lit ∈ directiveLocations

theorem sep_locs {ts rest : Toks} {tks : List Token} (h : SepBy LocTok b!"|" ts tks rest) :
    ∃ ls, SepBy LocName b!"|" ts ls rest ∧ tks.map (·.lit) = ls.map DirLoc.name := by
  have key : ∀ {ts t rest}, LocTok ts t rest → ∃ l, LocName ts l rest ∧ t.lit = l.name := by
    rintro ts t rest ⟨rfl, hk, hl⟩
    obtain ⟨l, -, hl⟩ := List.mem_map.1 hl
    exact ⟨l, ⟨t, rfl, hk, hl.symm⟩, hl.symm⟩
  induction h with
  | one h1 h2 =>
    obtain ⟨l, h3, h4⟩ := key h1
    exact ⟨[l], .one h3 h2, by simp [h4]⟩
  | cons h1 h2 _ ih =>
    obtain ⟨l, h3, h4⟩ := key h1
    obtain ⟨ls, h5, h6⟩ := ih
    exact ⟨l :: ls, .cons h3 h2 h5, by simp [h4, h6]⟩

theorem foldl_locs {tks : List Token} {ls : List DirLoc} (h : tks.map (·.lit) = ls.map DirLoc.name) :
    tks.foldl (fun a t => a ||| locByName t.lit) 0 = locMask ls := by
  unfold locMask
  generalize 0 = z
  induction tks generalizing ls z with
  | nil => cases ls with
    | nil => rfl
    | cons l ls => cases h
  | cons t tks ih =>
    cases ls with
    | nil => cases h
    | cons l ls =>
      simp only [List.map_cons, List.cons.injEq] at h
      rw [List.foldl_cons, List.foldl_cons, ih h.2, h.1, locByName_name]

theorem directiveLocations_ne : directiveLocations ≠ [] := by decide

theorem parseDirectiveDefinition_sound (n : Nat) (desc : Bytes) :
    Sound (parseDirectiveDefinition pf n desc) (DirDefn pf true desc) := by
  intro ts d rest h
  rw [parseDirectiveDefinition, skip1_bind (by decide)] at h
  rcases h with ⟨r, h1, h⟩ | ⟨hn1, h⟩
  · simp only [if_true] at h
    rw [skip1_bind (by decide)] at h
    rcases h with ⟨r1, h2, h⟩ | ⟨hn1, h⟩
    · simp only [if_true] at h
      rw [bind_ok] at h
      obtain ⟨t, r2, h3, h⟩ := h
      obtain ⟨rfl, hk⟩ := (mustConsume0_ok (by decide)).1 h3
      rw [bind_ok] at h
      obtain ⟨as, r3, h4, h⟩ := h
      rw [skip1_bind (by decide)] at h
      rcases h with ⟨r4, h5, h⟩ | ⟨hn1, h⟩
      · simp only [if_true] at h
        rw [bind_ok] at h
        obtain ⟨m, r5, h6, h⟩ := h
        obtain ⟨rfl, rfl⟩ := pure_ok.1 h
        rw [parseDirectiveLocations, bind_ok] at h6
        obtain ⟨b, r6, h7, h⟩ := h6
        rw [bind_ok] at h
        obtain ⟨tks, r7, h8, h⟩ := h
        obtain ⟨rfl, rfl⟩ := pure_ok.1 h
        have := rloop_sep (doWhile_sound (R := LocTok) (fun _ _ _ h => (mustConsumen_ok (by decide) directiveLocations_ne).1 h)
          bsep_sound _ _ _ h8)
        obtain ⟨ls, hls, e⟩ := sep_locs this
        rw [foldl_locs e]
        exact .mk h1 h2 ⟨t, rfl, hk, rfl⟩ (parseArgumentsDefinition_sound n _ _ _ h4) h5 (skip1_optPu h7) hls
      · exact (unexpectedCur_ok.1 h).elim
    · exact (unexpectedCur_ok.1 h).elim
  · rw [if_neg (by decide)] at h; exact (crash_ok.1 h).elim

theorem parseType_member (n : Nat) : Sound (parseType n) (MemberType true) :=
  fun _ _ _ h => ⟨parseType_sound n _ _ _ h, .inl rfl⟩

theorem parseImplementsInterfaces_sound (n : Nat) : Sound (parseImplementsInterfaces n) (Implements true) := by
  intro ts ds rest h
  rw [parseImplementsInterfaces, skip1_bind (by decide)] at h
  rcases h with ⟨r, h1, h⟩ | ⟨hn1, h⟩
  · simp only [if_true] at h
    rw [bind_ok] at h
    obtain ⟨b, r1, h2, h⟩ := h
    exact .some h1 (skip1_optPu h2) (rloop_sep (doWhile_sound (parseType_member n) bsep_sound _ _ _ h))
  · simp only [Bool.false_eq_true, if_false] at h
    obtain ⟨rfl, rfl⟩ := pure_ok.1 h
    exact .none hn1

theorem parseUnionMemberTypes_sound (n : Nat) : Sound (parseUnionMemberTypes n) (UnionMembers true) := by
  intro ts ds rest h
  rw [parseUnionMemberTypes, skip1_bind (by decide)] at h
  rcases h with ⟨r, h1, h⟩ | ⟨hn1, h⟩
  · simp only [if_true] at h
    rw [bind_ok] at h
    obtain ⟨b, r1, h2, h⟩ := h
    exact .some h1 (skip1_optPu h2) (rloop_sep (doWhile_sound (parseType_member n) bsep_sound _ _ _ h))
  · simp only [Bool.false_eq_true, if_false] at h
    obtain ⟨rfl, rfl⟩ := pure_ok.1 h
    exact .none hn1

theorem block_sound {α : Type} {body : P α} {R : Toks → α → Toks → Prop} (hb : Sound body R) :
    Sound (do
      if ← skip1 .punctuator b!"{" then doWhile body (skip1 .punctuator b!"}")
      else return []) (Block R) := by
  intro ts ds rest h
  rw [skip1_bind (by decide)] at h
  rcases h with ⟨r, h1, h⟩ | ⟨hn1, h⟩
  · simp only [if_true] at h
    obtain ⟨r1, h2, h3, h4⟩ := rloop_skip_many (doWhile_sound hb skip1_sound _ _ _ h)
    exact .some h1 h2 h3 h4
  · simp only [Bool.false_eq_true, if_false] at h
    obtain ⟨rfl, rfl⟩ := pure_ok.1 h
    exact .none hn1

theorem parseFieldDefinition_sound (n : Nat) : Sound (do
      let desc ← consume0 .stringValue
      let t ← mustConsume0 .name
      let args ← parseArgumentsDefinition pf n
      if ← skip1 .punctuator b!":" then
        let ty ← parseType n
        let dirs ← parseDirectives pf n .fieldDefinition
        return (⟨(desc.map (·.lit)).getD [], t.lit, args, ty, dirs⟩ : FieldDef)
      else unexpectedCur [expected .punctuator [b!":"]]) (FieldDefn pf true) := by
  intro ts d rest h
  rw [bind_ok] at h
  obtain ⟨o, r, h1, h⟩ := h
  rw [bind_ok] at h
  obtain ⟨t, r1, h2, h⟩ := h
  rw [bind_ok] at h
  obtain ⟨as, r2, h3, h⟩ := h
  rw [skip1_bind (by decide)] at h
  rcases h with ⟨r3, h4, h⟩ | ⟨hn1, h⟩
  · simp only [if_true] at h
    rw [bind_ok] at h
    obtain ⟨ty, r4, h5, h⟩ := h
    rw [bind_ok] at h
    obtain ⟨ds, r5, h6, h⟩ := h
    obtain ⟨rfl, rfl⟩ := pure_ok.1 h
    obtain ⟨rfl, hk⟩ := (mustConsume0_ok (by decide)).1 h2
    exact .mk (consume0_opt (by decide) h1) ⟨t, rfl, hk, rfl⟩ (parseArgumentsDefinition_sound n _ _ _ h3) h4
      (parseType_sound n _ _ _ h5) (parseDirectives_sound n true _ _ _ _ h6)
  · exact (unexpectedCur_ok.1 h).elim

theorem parseFieldsDefinition_sound (n : Nat) : Sound (parseFieldsDefinition pf n) (Block (FieldDefn pf true)) :=
  block_sound (parseFieldDefinition_sound n)

theorem parseEnumValueDefinition_sound (n : Nat) : Sound (do
      let desc ← consume0 .stringValue
      let t ← mustConsume0 .name
      if t.lit = b!"false" ∨ t.lit = b!"true" ∨ t.lit = b!"null" then
        fail (.unexpected t [expected .name [b!"valid enum value"]])
      else
        let dirs ← parseDirectives pf n .enumValue
        return (⟨(desc.map (·.lit)).getD [], dirs, t.lit⟩ : EnumVal)) (EnumValDefn pf true) := by
  intro ts d rest h
  rw [bind_ok] at h
  obtain ⟨o, r, h1, h⟩ := h
  rw [bind_ok] at h
  obtain ⟨t, r1, h2, h⟩ := h
  split at h
  · exact (fail_ok.1 h).elim
  · rename_i hne
    simp only [not_or] at hne
    rw [bind_ok] at h
    obtain ⟨ds, r2, h3, h⟩ := h
    obtain ⟨rfl, rfl⟩ := pure_ok.1 h
    obtain ⟨rfl, hk⟩ := (mustConsume0_ok (by decide)).1 h2
    exact .mk (consume0_opt (by decide) h1) ⟨t, rfl, hk, rfl⟩ hne.2.1 hne.1 hne.2.2 (parseDirectives_sound n true _ _ _ _ h3)

theorem parseEnumValuesDefinition_sound (n : Nat) : Sound (parseEnumValuesDefinition pf n) (Block (EnumValDefn pf true)) :=
  block_sound (parseEnumValueDefinition_sound n)

theorem parseInputFieldsDefinition_sound (n : Nat) :
    Sound (parseInputFieldsDefinition pf n) (Block (InputValue pf true .inputFieldDefinition)) :=
  block_sound (parseInputValueDefinition_sound n _)

theorem kindOf_keyword {l : Bytes} {k : TypeKind} (h : kindOf l = some k) : l = k.keyword := by
  unfold kindOf at h
  have := List.find?_some h
  simpa using (eq_of_beq this).symm

theorem parseTypeDefinition_sound (n : Nat) (desc : Bytes) :
    Sound (parseTypeDefinition pf n desc) (TypeDefn pf true desc) := by
  intro ts d rest h
  rw [parseTypeDefinition, bind_ok] at h
  obtain ⟨kt, r, h1, h⟩ := h
  obtain ⟨rfl, hkt⟩ := (mustConsume0_ok (by decide)).1 h1
  cases e : kindOf kt.lit with
  | none => rw [e] at h; exact (crash_ok.1 h).elim
  | some k =>
    rw [e] at h
    simp only at h
    have hkw := kindOf_keyword e
    rw [parseTypeBody, bind_ok] at h
    obtain ⟨t, r1, h2, h⟩ := h
    obtain ⟨rfl, hk⟩ := (mustConsume0_ok (by decide)).1 h2
    have hn : Nm t.lit (t :: r1) r1 := ⟨t, rfl, hk, rfl⟩
    have hkw' : Nm k.keyword (kt :: t :: r1) (t :: r1) := ⟨kt, rfl, hkt, hkw⟩
    cases k with
    | scalar =>
      simp only at h
      rw [bind_ok] at h
      obtain ⟨ds, r2, h3, h⟩ := h
      obtain ⟨rfl, rfl⟩ := pure_ok.1 h
      exact .scalar hkw' hn (parseDirectives_sound n true _ _ _ _ h3)
    | object =>
      simp only at h
      rw [bind_ok] at h
      obtain ⟨is, r2, h3, h⟩ := h
      rw [bind_ok] at h
      obtain ⟨ds, r3, h4, h⟩ := h
      rw [bind_ok] at h
      obtain ⟨fs, r4, h5, h⟩ := h
      obtain ⟨rfl, rfl⟩ := pure_ok.1 h
      exact .object hkw' hn (parseImplementsInterfaces_sound n _ _ _ h3) (parseDirectives_sound n true _ _ _ _ h4)
        (parseFieldsDefinition_sound n _ _ _ h5)
    | interface =>
      simp only at h
      rw [bind_ok] at h
      obtain ⟨ds, r3, h4, h⟩ := h
      rw [bind_ok] at h
      obtain ⟨fs, r4, h5, h⟩ := h
      obtain ⟨rfl, rfl⟩ := pure_ok.1 h
      exact .interface hkw' hn (parseDirectives_sound n true _ _ _ _ h4) (parseFieldsDefinition_sound n _ _ _ h5)
    | union =>
      simp only at h
      rw [bind_ok] at h
      obtain ⟨ds, r3, h4, h⟩ := h
      rw [bind_ok] at h
      obtain ⟨fs, r4, h5, h⟩ := h
      obtain ⟨rfl, rfl⟩ := pure_ok.1 h
      exact .union hkw' hn (parseDirectives_sound n true _ _ _ _ h4) (parseUnionMemberTypes_sound n _ _ _ h5)
    | enum =>
      simp only at h
      rw [bind_ok] at h
      obtain ⟨ds, r3, h4, h⟩ := h
      rw [bind_ok] at h
      obtain ⟨fs, r4, h5, h⟩ := h
      obtain ⟨rfl, rfl⟩ := pure_ok.1 h
      exact .enum hkw' hn (parseDirectives_sound n true _ _ _ _ h4) (parseEnumValuesDefinition_sound n _ _ _ h5)
    | inputObject =>
      simp only at h
      rw [bind_ok] at h
      obtain ⟨ds, r3, h4, h⟩ := h
      rw [bind_ok] at h
      obtain ⟨fs, r4, h5, h⟩ := h
      obtain ⟨rfl, rfl⟩ := pure_ok.1 h
      exact .input hkw' hn (parseDirectives_sound n true _ _ _ _ h4) (parseInputFieldsDefinition_sound n _ _ _ h5)

theorem parseTypeExtension_sound (n : Nat) :
    Sound (parseTypeExtension pf n) (TypeDefn pf true []) := by
  intro ts d rest h
  rw [parseTypeExtension, bind_ok] at h
  obtain ⟨kt, r, h1, h⟩ := h
  obtain ⟨rfl, hkt⟩ := (mustConsume0_ok (by decide)).1 h1
  rw [bind_ok] at h
  obtain ⟨t, r1, h2, h⟩ := h
  obtain ⟨rfl, hk⟩ := (mustConsume0_ok (by decide)).1 h2
  rw [bind_ok] at h
  obtain ⟨is, r2, h3, h⟩ := h
  have hn : Nm t.lit (t :: r1) r1 := ⟨t, rfl, hk, rfl⟩
  cases e : kindOf kt.lit with
  | none => rw [e] at h; exact (crash_ok.1 h).elim
  | some k =>
    rw [e] at h
    have hkw := kindOf_keyword e
    have hkw' : Nm k.keyword (kt :: t :: r1) (t :: r1) := ⟨kt, rfl, hkt, hkw⟩
    have hobj : k = .object → Implements true r1 is r2 := by
      rintro rfl
      rw [if_pos (show kt.lit = b!"type" from hkw), bind_ok] at h3
      obtain ⟨b, r3, h4, h3⟩ := h3
      obtain ⟨rfl, ⟨rfl, -⟩ | ⟨rfl, h5⟩⟩ := (peek1_ok (by decide)).1 h4
      · simp only [if_true] at h3; exact parseImplementsInterfaces_sound n _ _ _ h3
      · simp only [Bool.false_eq_true, if_false] at h3
        obtain ⟨rfl, rfl⟩ := pure_ok.1 h3; exact .none h5
    have hne : k ≠ .object → is = [] ∧ r2 = r1 := by
      intro hne
      rw [if_neg (by rw [hkw]; cases k <;> first | decide | exact absurd rfl hne)] at h3
      obtain ⟨rfl, rfl⟩ := pure_ok.1 h3; exact ⟨rfl, rfl⟩
    cases k with
    | scalar =>
      obtain ⟨rfl, rfl⟩ := hne (by decide)
      simp only at h
      rw [bind_ok] at h
      obtain ⟨ds, r2, h3, h⟩ := h
      obtain ⟨rfl, rfl⟩ := pure_ok.1 h
      exact .scalar hkw' hn (parseDirectives_sound n true _ _ _ _ h3)
    | object =>
      simp only at h
      rw [bind_ok] at h
      obtain ⟨ds, r3, h4, h⟩ := h
      rw [bind_ok] at h
      obtain ⟨fs, r4, h5, h⟩ := h
      obtain ⟨rfl, rfl⟩ := pure_ok.1 h
      exact .object hkw' hn (hobj rfl) (parseDirectives_sound n true _ _ _ _ h4)
        (parseFieldsDefinition_sound n _ _ _ h5)
    | interface =>
      obtain ⟨rfl, rfl⟩ := hne (by decide)
      simp only at h
      rw [bind_ok] at h
      obtain ⟨ds, r3, h4, h⟩ := h
      rw [bind_ok] at h
      obtain ⟨fs, r4, h5, h⟩ := h
      obtain ⟨rfl, rfl⟩ := pure_ok.1 h
      exact .interface hkw' hn (parseDirectives_sound n true _ _ _ _ h4) (parseFieldsDefinition_sound n _ _ _ h5)
    | union =>
      obtain ⟨rfl, rfl⟩ := hne (by decide)
      simp only at h
      rw [bind_ok] at h
      obtain ⟨ds, r3, h4, h⟩ := h
      rw [bind_ok] at h
      obtain ⟨fs, r4, h5, h⟩ := h
      obtain ⟨rfl, rfl⟩ := pure_ok.1 h
      exact .union hkw' hn (parseDirectives_sound n true _ _ _ _ h4) (parseUnionMemberTypes_sound n _ _ _ h5)
    | enum =>
      obtain ⟨rfl, rfl⟩ := hne (by decide)
      simp only at h
      rw [bind_ok] at h
      obtain ⟨ds, r3, h4, h⟩ := h
      rw [bind_ok] at h
      obtain ⟨fs, r4, h5, h⟩ := h
      obtain ⟨rfl, rfl⟩ := pure_ok.1 h
      exact .enum hkw' hn (parseDirectives_sound n true _ _ _ _ h4) (parseEnumValuesDefinition_sound n _ _ _ h5)
    | inputObject =>
      obtain ⟨rfl, rfl⟩ := hne (by decide)
      simp only at h
      rw [bind_ok] at h
      obtain ⟨ds, r3, h4, h⟩ := h
      rw [bind_ok] at h
      obtain ⟨fs, r4, h5, h⟩ := h
      obtain ⟨rfl, rfl⟩ := pure_ok.1 h
      exact .input hkw' hn (parseDirectives_sound n true _ _ _ _ h4) (parseInputFieldsDefinition_sound n _ _ _ h5)

/-! Definitions and documents -/

theorem parseDefinitionBody_sound (n : Nat) : Sound (parseDefinitionBody pf n) (Defn pf true) := by
  intro ts b rest h
  rw [parseDefinitionBody, bind_eq (cur_eq ts), bind_ok] at h
  obtain ⟨b1, r, h1, h⟩ := h
  cases b1 with
  | true =>
    simp only [if_true] at h
    have : r = ts := by
      rcases orP_ok.1 h1 with ⟨-, h1⟩ | ⟨r', h1, h2⟩
      · rw [peekn_eq (by simp)] at h1; exact (Res.ok.inj h1).2.symm
      · rw [peekn_eq (by simp)] at h1; obtain ⟨-, rfl⟩ := Res.ok.inj h1; exact ((peek1_ok (by decide)).1 h2).1
    subst this
    rw [bind_ok] at h
    obtain ⟨o, r1, h2, h⟩ := h
    obtain ⟨rfl, rfl⟩ := pure_ok.1 h
    exact .op (parseOperationDefinition_sound n _ _ _ _ h2)
  | false =>
    have : r = ts := by
      rcases orP_ok.1 h1 with ⟨h, -⟩ | ⟨r', h1, h2⟩
      · cases h
      · rw [peekn_eq (by simp)] at h1; obtain ⟨-, rfl⟩ := Res.ok.inj h1; exact ((peek1_ok (by decide)).1 h2).1
    subst this
    simp only [Bool.false_eq_true, if_false] at h
    rw [bind_ok] at h
    obtain ⟨b2, r1, h2, h⟩ := h
    obtain ⟨rfl, ⟨rfl, -⟩ | ⟨rfl, h2⟩⟩ := (peek1_ok (by decide)).1 h2
    · simp only [if_true] at h
      rw [bind_ok] at h
      obtain ⟨o, r1, h2, h⟩ := h
      obtain ⟨rfl, rfl⟩ := pure_ok.1 h
      exact .frag (parseFragmentDefinition_sound n _ _ _ h2)
    simp only [Bool.false_eq_true, if_false] at h
    rw [bind_ok] at h
    obtain ⟨b2, r1, h3, h⟩ := h
    obtain ⟨rfl, ⟨rfl, -⟩ | ⟨rfl, h3⟩⟩ := (peek1_ok (by decide)).1 h3
    · simp only [if_true] at h
      rw [parseTypeSystemExtension, skip1_bind (by decide)] at h
      rcases h with ⟨r, h4, h⟩ | ⟨hn1, h⟩
      · simp only [if_true] at h
        rw [bind_ok] at h
        obtain ⟨b3, r2, h5, h⟩ := h
        obtain ⟨rfl, ⟨rfl, -⟩ | ⟨rfl, h5⟩⟩ := (peek1_ok (by decide)).1 h5
        · simp only [if_true] at h
          rw [bind_ok] at h
          obtain ⟨o, r1, h6, h⟩ := h
          obtain ⟨rfl, rfl⟩ := pure_ok.1 h
          exact .schemaExt h4 (parseSchemaExtension_sound n _ _ _ h6)
        · simp only [Bool.false_eq_true, if_false] at h
          rw [bind_ok] at h
          obtain ⟨b3, r3, h6, h⟩ := h
          rw [peekn_eq (by decide)] at h6
          cases h6
          split at h
          · rw [bind_ok] at h
            obtain ⟨o, r1, h6, h⟩ := h
            obtain ⟨rfl, rfl⟩ := pure_ok.1 h
            exact .typeExt h4 (parseTypeExtension_sound n _ _ _ h6) (.inr rfl)
          · exact (unexpectedCur_ok.1 h).elim
      · exact (unexpectedCur_ok.1 h).elim
    simp only [Bool.false_eq_true, if_false] at h
    rw [bind_ok] at h
    obtain ⟨o, r1, h4, h⟩ := h
    have hd := consume0_opt (by decide) h4
    generalize (o.map (·.lit)).getD [] = desc at hd h
    rw [bind_ok] at h
    obtain ⟨b4, r2, h5, h⟩ := h
    rw [peekn_eq (by simp)] at h5
    cases h5
    by_cases hmem : (decide ((GQL.hd r1).kind = TokenKind.name) && (typeKeywords ++ [b!"directive"] ++
        (if desc = [] then [b!"schema"] else [])).contains (GQL.hd r1).lit) = true
    · rw [if_pos hmem] at h
      simp only [Bool.and_eq_true, decide_eq_true_eq, List.contains_iff_mem] at hmem
      rw [parseTypeSystemDefinition, bind_ok] at h
      obtain ⟨b5, r3, h6, h⟩ := h
      obtain ⟨rfl, ⟨rfl, r4, h6⟩ | ⟨rfl, h6⟩⟩ := (peek1_ok (by decide)).1 h6
      · simp only [if_true] at h
        rw [bind_ok] at h
        obtain ⟨o, r1, h7, h⟩ := h
        obtain ⟨rfl, rfl⟩ := pure_ok.1 h
        have h7 := parseSchemaDefinition_sound n _ _ _ h7
        have hl : (GQL.hd r3).lit = b!"schema" := ((tok1_iff (by decide)).1 h6).2.1
        have hdesc : desc = [] := by
          apply Classical.byContradiction
          intro hne
          rw [if_neg hne, hl] at hmem
          exact absurd hmem.2 (by decide)
        subst hdesc
        rcases hd with hd | ⟨-, -, rfl⟩
        · exact .schemaDesc rfl hd h7
        · exact .schema h7
      simp only [Bool.false_eq_true, if_false] at h
      rw [bind_ok] at h
      obtain ⟨b6, r4, h7, h⟩ := h
      obtain ⟨rfl, ⟨rfl, -⟩ | ⟨rfl, h7⟩⟩ := (peek1_ok (by decide)).1 h7
      · simp only [if_true] at h
        rw [bind_ok] at h
        obtain ⟨o, r1, h7, h⟩ := h
        obtain ⟨rfl, rfl⟩ := pure_ok.1 h
        exact .directive hd (parseDirectiveDefinition_sound n _ _ _ _ h7)
      simp only [Bool.false_eq_true, if_false] at h
      rw [bind_ok] at h
      obtain ⟨b6, r5, h8, h⟩ := h
      rw [peekn_eq (by decide)] at h8
      cases h8
      split at h
      · rw [bind_ok] at h
        obtain ⟨o, r1, h7, h⟩ := h
        obtain ⟨rfl, rfl⟩ := pure_ok.1 h
        exact .type hd (parseTypeDefinition_sound n _ _ _ _ h7)
      · exact (crash_ok.1 h).elim
    · rw [if_neg hmem] at h; exact (unexpectedCur_ok.1 h).elim

end

end GQL
