/-
C99: `Parse` called again on the same parser.

The state of a parser between two calls is that of its lexer (`parseCall`, Model/ParseAgain); `Reach input l` says that `l` is the state after some calls of
`Scan`.
-/
import Verif.Proofs.ParseAgain
import Verif.Props.C11Doc

namespace GQL
open Spec Spec.Syntax

/-- The error of `Parse` when there is nothing left. -/
def nothingLeft (t : Token) : ParseOut := .err (.unexpected t [b!"Name 'query|mutation|fragment'", b!"Punctuator '{'"])

/-- C99: the first call is the one that the other properties speak of. -/
theorem C99_first (pf : Bytes → Option Nat) (input : Bytes) :
    (parse pf input = .panic ∧ parseCall pf (newLexer input) = .panic) ∨
    ∃ l, parseCall pf (newLexer input) = .ret (parse pf input, l) ∧ Reach input l ∧ (input ≠ [] → 0 < l.pos) := by
  obtain ⟨us, t, h1, -, -⟩ := tokensF_shape (.new (input := input))
  have hp : parse pf input = parseTokens pf (us ++ [t]) := by
    unfold parse
    rw [show tokens input = _ from h1]
  rcases parseCall_cases (pf := pf) .new h1 with ⟨g1, g2⟩ | ⟨r, l, -, -, g2, g3, -, g4⟩
  · exact .inl ⟨hp.trans g1, g2⟩
  · refine .inr ⟨l, by rw [hp]; exact g2, g3, fun hn => g4 ?_⟩
    exact List.length_pos_iff.2 hn

/-- C99: in every state, a call panics or returns a document or an error, and then the lexer is further on, unless it was at the end of the text. -/
theorem C99_returns (pf : Bytes → Option Nat) (input : Bytes) (l : Lexer) (h : Reach input l) :
    parseCall pf l = .panic ∨ ∃ o l', parseCall pf l = .ret (o, l') ∧ ((∃ d, o = .ok d) ∨ ∃ e, o = .err e) ∧ Reach input l' ∧
      (l.pos < input.length → l.pos < l'.pos) := by
  obtain ⟨us, t, h1, -, -⟩ := tokensF_shape h
  rcases parseCall_cases (pf := pf) h h1 with ⟨-, g2⟩ | ⟨r, l', g1, -, g2, g3, -, g4⟩
  · exact .inl g2
  · exact .inr ⟨_, l', g2, g1.imp (fun ⟨d, _, h⟩ => ⟨_, h⟩) (fun ⟨e, _, h⟩ => ⟨e, h⟩), g3, g4⟩

/-- C99: at the end of the text a call fails and changes nothing. -/
theorem C99_at_end (pf : Bytes → Option Nat) (l : Lexer) (h : l.pos = l.input.length) :
    parseCall pf l = .ret (nothingLeft ⟨.eof, [], l.line, l.lpos + 1⟩, l) := by
  have ht : tokensF (l.input.length + 2) l = .ret [⟨.eof, [], l.line, l.lpos + 1⟩] := by
    rw [tokensF, scan_end h]; rfl
  have hp : ∃ r, parseDefs pf 2 [⟨.eof, [], l.line, l.lpos + 1⟩] =
      .err (.unexpected ⟨.eof, [], l.line, l.lpos + 1⟩ [b!"Name 'query|mutation|fragment'", b!"Punctuator '{'"]) r := ⟨_, rfl⟩
  obtain ⟨r, hp⟩ := hp
  unfold parseCall
  rw [ht]; dsimp only [List.length_singleton]
  rw [hp]; dsimp only
  rw [scanTimes_end h]
  rfl

theorem calls_at_end (pf : Bytes → Option Nat) (l : Lexer) (h : l.pos = l.input.length) (m : Nat) :
    parseCalls pf m l = .ret (List.replicate m (nothingLeft ⟨.eof, [], l.line, l.lpos + 1⟩), l) := by
  induction m with
  | zero => rfl
  | succ m ih =>
    rw [parseCalls, C99_at_end pf l h]
    show (parseCalls pf m l).bind _ = _
    rw [ih]
    rfl

theorem calls_pos {pf : Bytes → Option Nat} {input : Bytes} (n : Nat) {l l' : Lexer} {outs : List ParseOut} (h : Reach input l)
    (e : parseCalls pf n l = .ret (outs, l')) : Reach input l' ∧ outs.length = n ∧ (l'.pos = input.length ∨ l.pos + n ≤ l'.pos) := by
  induction n generalizing l outs with
  | zero => cases e; exact ⟨h, rfl, .inr (Nat.le_refl _)⟩
  | succ n ih =>
    rw [parseCalls] at e
    rcases C99_returns pf input l h with hp | ⟨o, l1, h1, -, h2, h3⟩
    · rw [hp] at e; cases e
    rw [h1] at e
    change (parseCalls pf n l1).bind _ = _ at e
    rcases e2 : parseCalls pf n l1 with ⟨outs1, l2⟩ | _ | _ <;> rw [e2] at e
    · cases e
      obtain ⟨g1, g2, g3⟩ := ih h2 e2
      refine ⟨g1, by simp [g2], ?_⟩
      have hb := h.inv.2
      have h1b := h2.inv.2
      rcases g3 with g3 | g3
      · exact .inl g3
      · by_cases hl : l.pos < input.length
        · have := h3 hl
          have g4 : l1.pos + n ≤ l2.pos := g3
          exact .inr (by show l.pos + (n + 1) ≤ l2.pos; omega)
        · left
          obtain ⟨l3, k1, k2⟩ : ∃ k, parseCall pf l = .ret (k, l) ∧ True := ⟨_, C99_at_end pf l (by rw [h.inv.1]; omega), trivial⟩
          rw [k1] at h1; cases h1
          have g5 : l2.pos ≤ input.length := g1.inv.2
          have g4 : l.pos + n ≤ l2.pos := g3
          show l2.pos = _
          omega
    · cases e
    · cases e

/-- C99: a program that calls `Parse` until it fails at the end of the text is done after as many calls as the text has bytes: from then on every call
says that there is nothing left, and nothing changes. -/
theorem C99_drained (pf : Bytes → Option Nat) (input : Bytes) (n : Nat) (hn : input.length ≤ n) (outs : List ParseOut) (l : Lexer)
    (h : parseCalls pf n (newLexer input) = .ret (outs, l)) :
    l.pos = input.length ∧ ∃ t, t.kind = .eof ∧ ∀ m, parseCalls pf m l = .ret (List.replicate m (nothingLeft t), l) := by
  obtain ⟨h1, -, h2⟩ := calls_pos n .new h
  have hb := h1.inv.2
  have hp : l.pos = input.length := by
    rcases h2 with h2 | h2
    · exact h2
    · simp [newLexer] at h2; omega
  exact ⟨hp, ⟨.eof, [], l.line, l.lpos + 1⟩, rfl, calls_at_end pf l (by rw [hp, h1.inv.1])⟩

theorem scanTimes_succ {n : Nat} {l l1 l2 : Lexer} {t : Token} (h : scanTimes n l = .ret l1) (e : scan l1 = .ret (t, l2)) :
    scanTimes (n + 1) l = .ret l2 := by
  induction n generalizing l with
  | zero => cases h; rw [scanTimes, e]; rfl
  | succ n ih =>
    rw [scanTimes] at h ⊢
    rcases e1 : scan l with ⟨t, l3⟩ | _ | _ <;> rw [e1] at h <;> dsimp only at h ⊢
    · exact ih h
    · cases h
    · cases h

/-- C99: a parser that has returned a document is at the end of its text, and every further call fails.  Partial: in texts without NUL bytes. -/
theorem C99_after_document_partial (pf : Bytes → Option Nat) (input : Bytes) (h0 : 0 ∉ input) (l l' : Lexer) (h : Reach input l) (d : Document)
    (hd' : parseCall pf l = .ret (.ok d, l')) :
    l'.pos = input.length ∧ ∃ t, t.kind = .eof ∧ ∀ m, parseCalls pf m l' = .ret (List.replicate m (nothingLeft t), l') := by
  obtain ⟨us, t, h1, hk, hall⟩ := tokensF_shape h
  rcases parseCall_cases (pf := pf) h h1 with ⟨-, g2⟩ | ⟨r, l2, g1, gs, g2, g3, -, -⟩
  · rw [g2] at hd'; cases hd'
  rw [g2] at hd'
  have he := Out.ret.inj hd'
  have heo := congrArg Prod.fst he
  have hel := congrArg Prod.snd he
  dsimp only at heo hel
  subst hel
  obtain ⟨ds, gp, -⟩ : ∃ ds, parseDefs pf ((us ++ [t]).length + 1) (us ++ [t]) = .ok ds r ∧ parseTokens pf (us ++ [t]) = .ok (mkDocument ds) := by
    rcases g1 with g1 | ⟨e, -, g1⟩
    · exact g1
    · rw [g1] at heo; cases heo
  obtain ⟨-, gm, gk⟩ := (parseDefs_doc (pf := pf) _ (Nat.lt_succ_self _)).1 gp
  have ge := many_eats (fun ts a r h => (locDefn_eats (pf := pf) (lax := true) h).1) gm
  have hr : r = [t] ∧ t.kind = .eof := by
    have hend := (hasEnd_shape hk).of_eats ge
    obtain ⟨pre, hpre, -⟩ := ge
    cases r with
    | nil => obtain ⟨x, hx, -⟩ := hend; cases hx
    | cons x r =>
      have gx : x.kind = .eof := gk
      rcases List.eq_nil_or_concat r with rfl | ⟨r0, y, rfl⟩
      · obtain ⟨-, hy⟩ := List.append_inj' hpre rfl
        cases hy
        exact ⟨rfl, gx⟩
      · rw [List.concat_eq_append] at hpre
        have hpre2 : us ++ [t] = (pre ++ x :: r0) ++ [y] := by rw [hpre]; simp
        obtain ⟨hy, -⟩ := List.append_inj' hpre2 rfl
        exact absurd gx (hall x (by rw [hy]; simp)).1
  obtain ⟨rfl, hte⟩ := hr
  have hlen : (us ++ [t]).length - [t].length + 1 = us.length + 1 := by simp
  rw [hlen] at gs
  obtain ⟨l1, k1, k2, k3⟩ := scanTimes_tokens us h (by simp) h1
  obtain ⟨⟨t', l3⟩, e1⟩ := C01_scan_returns input l1 k2
  rw [tokensF, e1] at k3; dsimp only at k3
  have htt : t' = t := by
    split at k3
    · cases k3; rfl
    · split at k3
      · cases k3
      · cases k3
      · rename_i hk' _ _
        have := (List.cons.inj (Out.ret.inj k3)).1
        exact this
  subst htt
  have hpos := C05_eof_partial input h0 l1 k2 t' l3 e1 hte
  rw [scanTimes_succ k1 e1] at gs
  cases gs
  exact ⟨hpos, ⟨.eof, [], l2.line, l2.lpos + 1⟩, rfl, calls_at_end pf l2 (by rw [hpos, g3.inv.1])⟩

theorem call_of_tokens {pf : Bytes → Option Nat} {n : Nat} {input : Bytes} {l : Lexer} {r : Toks} (h : Reach input l) (hr : tokensF n l = .ret r) :
    (parseTokens pf r = .panic ∧ parseCall pf l = .panic) ∨ ∃ l', parseCall pf l = .ret (parseTokens pf r, l') := by
  obtain ⟨us, t, h1, -, -⟩ := tokensF_shape h
  have : us ++ [t] = r := by
    have g1 := tokensF_mono h1 (Nat.le_add_right _ n)
    have g2 := tokensF_mono hr (Nat.le_add_left n (l.input.length + 2))
    rw [g1] at g2
    exact Out.ret.inj g2
  subst this
  rcases parseCall_cases (pf := pf) h h1 with g | ⟨_, l', -, -, g2, -⟩
  · exact .inl g
  · exact .inr ⟨l', g2⟩

/-- C99: after an error the parser goes on behind the token that the error is about, as if the text began there.  The errors about a token that is
right in its place, but not good enough (`OutOfRange`: a number out of range, `true`, `false` or `null` as a value of an enumeration) have read one token
more, which is lost.  (If the token was the last, then the text is at its end, or the token was Illegal; see `C99_at_end`.) -/
theorem C99_after_error (pf : Bytes → Option Nat) (input : Bytes) (e : PErr) (h : parse pf input = .err e) :
    ∃ before t rest l, tokens input = .ret (before ++ t :: rest) ∧ FailsAt pf e before t ∧ parseCall pf (newLexer input) = .ret (.err e, l) ∧
      (¬ OutOfRange e → rest ≠ [] → (parseTokens pf rest = .panic ∧ parseCall pf l = .panic) ∨ ∃ l', parseCall pf l = .ret (parseTokens pf rest, l')) ∧
      (OutOfRange e → ∃ lost rest', rest = lost :: rest' ∧
        (rest' ≠ [] → (parseTokens pf rest' = .panic ∧ parseCall pf l = .panic) ∨ ∃ l', parseCall pf l = .ret (parseTokens pf rest', l'))) := by
  obtain ⟨ts, r, ht, hp⟩ := parse_err h
  have he := term_of_tokens ht
  obtain ⟨c, s0, t, h1, h2, h3, h4, h5, h6⟩ := parseDefs_local pf _ he hp
  obtain ⟨rest, hr⟩ := seen_tokens h3
  have hfails : FailsAt pf e s0 t := by
    refine ⟨seen_about h3, fun input' rest' ht' => ?_⟩
    obtain ⟨r', h⟩ := h5 rest' (term_of_tokens ht')
    exact parse_eq ht' (by unfold parseTokens; rw [h])
  have hrn : ∃ x r1, r = x :: r1 := by
    obtain ⟨y, hy, hk⟩ := he
    rw [h1] at hy
    rcases List.mem_append.1 hy with hy | hy
    · rcases hk with hk | hk
      · exact absurd hk (h2 y hy).1
      · exact absurd hk (h2 y hy).2
    · cases r with
      | nil => cases hy
      | cons x r1 => exact ⟨x, r1, rfl⟩
  obtain ⟨x, r1, rfl⟩ := hrn
  have ht' : tokensF ((newLexer input).input.length + 2) (newLexer input) = .ret ts := ht
  have hone : parseTokens pf ts = .err e := by unfold parseTokens; rw [hp]
  rcases parseCall_cases (pf := pf) .new ht' with ⟨g1, -⟩ | ⟨r', l, g1, gs, g2, g3, -, -⟩
  · rw [hone] at g1; cases g1
  have hr' : r' = x :: r1 := by
    rcases g1 with ⟨ds, g1, -⟩ | ⟨e', g1, -⟩
    · rw [hp] at g1; cases g1
    · rw [hp] at g1; cases g1; rfl
  subst hr'
  have hcount : ts.length - (x :: r1).length + 1 = (c ++ [x]).length := by rw [h1]; simp
  rw [hcount] at gs
  have hnext : r1 ≠ [] → tokensF ((newLexer input).input.length + 2) l = .ret r1 := by
    intro hn
    obtain ⟨l2, k1, -, k3⟩ := scanTimes_tokens (c ++ [x]) .new hn (by rw [ht', h1]; simp)
    rw [gs] at k1; cases k1
    exact k3
  rw [hone] at g2
  refine ⟨s0, t, rest, l, by rw [ht, h1, hr], hfails, g2, fun ho hn => ?_, fun ho => ?_⟩
  · rcases h3 with ⟨k1, -, -⟩ | ⟨k1, c0, u, k2, k3⟩
    · obtain ⟨rfl, hx⟩ := List.append_inj' k1 rfl
      have := List.append_cancel_left hr
      obtain ⟨-, rfl⟩ := List.cons.inj this
      exact call_of_tokens g3 (hnext hn)
    · exact absurd (late_of_last k3) ho
  · rcases h3 with ⟨k1, -, k3⟩ | ⟨k1, c0, u, k2, k3⟩
    · exfalso
      cases e with
      | unexpected t0 w => exact k3.2 ho.2.2
      | atoi l => cases k3
      | parseFloat l => cases k3
      | todo => cases ho
    · rw [← k1] at hr
      have : x :: r1 = rest := by simpa using hr
      exact ⟨x, r1, this.symm, fun hn => call_of_tokens g3 (hnext hn)⟩

/-- A call of `Scan` that gives no Illegal token ends between two characters. -/
theorem scan_between {l l' : Lexer} {t : Token} {cs : List Char} (h : At l cs) (hz : NoNul cs) (e : scan l = .ret (t, l')) (hk : t.kind ≠ .illegal) :
    ∃ gone left, cs = gone ++ left ∧ At l' left := by
  obtain ⟨ign, cs', lS, p1, -, -, p4, -, p6, -, -⟩ := scanF_skip (n := l.fuel) h hz (fuel_length h)
  subst p1
  unfold scan at e
  rw [p6] at e
  obtain _ | ⟨c, cs'⟩ := cs'
  · have : scanTok (nxt []) (nxtW []) (lS.step []) = .ret (⟨.eof, [], lS.line, lS.lpos + 1⟩, lS) := by
      show scanTok 0 0 lS = _
      unfold scanTok
      rw [if_neg (by decide), if_neg (by decide), if_neg (by decide), if_neg (by decide), if_pos rfl]
    rw [this] at e
    cases e
    exact ⟨ign, [], rfl, p4⟩
  · have hz' : NoNul (c :: cs') := hz.right
    rcases lexeme_sound p4 hz' with ⟨tok, rest, hlx⟩ | ⟨tk, l1, e1, hk1⟩
    · obtain ⟨lx, e2, -⟩ := lexeme_split hlx
      rw [e2] at hlx p4 hz' e ⊢
      obtain ⟨t1, l1, s1, s2⟩ := lexeme_complete hlx p4 hz'
      rw [s1] at e
      cases e
      exact ⟨ign ++ lx, rest, by simp, s2.at'⟩
    · have e' : scanTok (nxt (c :: cs')) (nxtW (c :: cs')) (lS.step (c :: cs')) = .ret (tk, l1) := e1
      rw [e'] at e
      cases e
      exact absurd hk1 hk

theorem scanTimes_between {k n : Nat} {l l' : Lexer} {cs : List Char} {ts : Toks} (h : At l cs) (hz : NoNul cs) (ht : tokensF n l = .ret ts)
    (hi : ∀ t ∈ ts, t.kind ≠ .illegal) (hk : k ≤ ts.length) (e : scanTimes k l = .ret l') :
    ∃ gone left, cs = gone ++ left ∧ At l' left := by
  induction k generalizing l cs n ts with
  | zero => cases e; exact ⟨[], cs, rfl, h⟩
  | succ k ih =>
    cases n with
    | zero => cases ht
    | succ n =>
      rw [tokensF] at ht
      rw [scanTimes] at e
      rcases e1 : scan l with ⟨t, l1⟩ | _ | _ <;> rw [e1] at ht e <;> dsimp only at ht e
      · have step : t ∈ ts → ∃ a b, cs = a ++ b ∧ At l1 b := fun hm => scan_between h hz e1 (hi t hm)
        split at ht
        · cases ht
          obtain ⟨a, b, rfl, hb⟩ := step (by simp)
          have : k = 0 := by simp at hk; exact hk
          subst this
          cases e
          exact ⟨a, b, rfl, hb⟩
        · rcases e2 : tokensF n l1 with ts1 | _ | _ <;> rw [e2] at ht <;> dsimp only at ht
          · cases ht
            obtain ⟨a, b, rfl, hb⟩ := step (by simp)
            obtain ⟨a2, b2, rfl, hb2⟩ := ih hb hz.right e2 (fun u hu => hi u (List.mem_cons_of_mem _ hu)) (by simpa using hk) e
            exact ⟨a ++ a2, b2, by simp, hb2⟩
          · cases ht
          · cases ht
      · cases ht
      · cases ht

theorem parseTokens_doc {pf : Bytes → Option Nat} {ts : Toks} {d : Document} (he : HasEnd ts) :
    parseTokens pf ts = .ok d ↔ d = mkDocument d.defs ∧ Doc pf true ts d.defs := by
  rw [doc_iff pf ts he d.defs]
  unfold parseTokens
  rcases e : parseDefs pf (ts.length + 1) ts with ⟨ds, r⟩ | ⟨er, r⟩ | _ | _ <;> dsimp only
  · constructor
    · intro h; cases h; exact ⟨by rw [mkDocument_defs], by rw [mkDocument_defs]; exact ⟨r, rfl⟩⟩
    · rintro ⟨h1, r', h2⟩
      cases h2
      rw [h1, mkDocument_defs]
  all_goals
    constructor
    · intro h; cases h
    · rintro ⟨-, r', h2⟩; cases h2

theorem parseTokens_sim {pf : Bytes → Option Nat} {ts ts' : Toks} (he : HasEnd ts) (he' : HasEnd ts') (hs : Sim ts ts') {d : Document}
    (h : parseTokens pf ts = .ok d) : ∃ d', parseTokens pf ts' = .ok d' ∧ noLoc d' = noLoc d := by
  obtain ⟨h1, h2⟩ := (parseTokens_doc he).1 h
  obtain ⟨ds', h3, h4⟩ := doc_sim h2 hs
  refine ⟨mkDocument ds', (parseTokens_doc he').2 ⟨by rw [mkDocument_defs], by rw [mkDocument_defs]; exact h3⟩, ?_⟩
  rw [h1]
  exact mkDocument_bodies h4

/-- C99: between two characters of the text, a call returns a document if and only if what is left of the text, parsed on its own, is one, and the
document is the same but for the positions in it. -/
theorem C99_what_is_left (pf : Bytes → Option Nat) (input : Bytes) (l : Lexer) (h : Reach input l) (left : List Char) (h0 : '\x00' ∉ left)
    (hl : input.drop l.pos = utf8 left) (d : Document) :
    (∃ d1 l', parseCall pf l = .ret (.ok d1, l') ∧ noLoc d1 = noLoc d) ↔ ∃ d2, parse pf (utf8 left) = .ok d2 ∧ noLoc d2 = noLoc d := by
  have hz := noNul_of h0
  have ha : At l left := ⟨by rw [h.inv.1]; exact h.inv.2, by rw [h.inv.1]; exact hl⟩
  have hlen : left.length < l.input.length + 2 := by
    have h1 := congrArg List.length hl
    rw [List.length_drop] at h1
    have := length_utf8_le left
    rw [h.inv.1]; omega
  obtain ⟨it1, r1, toks1, last1, a1, a2, a3, a4, a5, -⟩ := tokensF_at ha hz hlen []
  obtain ⟨it2, r2, toks2, last2, b1, b2, b3, b4, b5, -⟩ := tokensF_at (n := (utf8 left).length + 2) (at_new left) hz
    (by have := length_utf8_le left; omega) []
  obtain ⟨rfl, rfl⟩ := Lex.unique hz a1 a2 b1 b2
  have g1 : last1.kind = .eof ∨ last1.kind = .illegal := by rw [a5]; split <;> simp
  have g2 : last2.kind = .eof ∨ last2.kind = .illegal := by rw [b5]; split <;> simp
  have hp : parse pf (utf8 left) = parseTokens pf (toks2 ++ [last2]) := by
    unfold parse; rw [show tokens (utf8 left) = _ from b3]
  have hc : ∀ d1, (∃ l', parseCall pf l = .ret (.ok d1, l')) ↔ parseTokens pf (toks1 ++ [last1]) = .ok d1 := by
    intro d1
    rcases call_of_tokens (pf := pf) h a3 with ⟨k1, k2⟩ | ⟨l', k⟩
    · rw [k1, k2]; simp
    · rw [k]
      constructor
      · rintro ⟨l2, e⟩; exact congrArg Prod.fst (Out.ret.inj e)
      · intro e; exact ⟨l', by rw [e]⟩
  by_cases hr : r1 = []
  · rw [if_pos hr] at a5 b5
    have hs : Sim (toks1 ++ [last1]) (toks2 ++ [last2]) := by
      unfold Sim
      rw [List.map_append, List.map_append, a4, b4]
      simp [a5, b5, tokensF_eof_lit _ _ _ a3 last1 (by simp) a5, tokensF_eof_lit _ _ _ b3 last2 (by simp) b5]
    constructor
    · rintro ⟨d1, l', k1, k2⟩
      obtain ⟨d2, m1, m2⟩ := parseTokens_sim (hasEnd_shape g1) (hasEnd_shape g2) hs ((hc d1).1 ⟨l', k1⟩)
      exact ⟨d2, hp.trans m1, m2.trans k2⟩
    · rintro ⟨d2, k1, k2⟩
      obtain ⟨d1, m1, m2⟩ := parseTokens_sim (hasEnd_shape g2) (hasEnd_shape g1) hs.symm (hp.symm.trans k1)
      obtain ⟨l', m3⟩ := (hc d1).2 m1
      exact ⟨d1, l', m3, m2.trans k2⟩
  · rw [if_neg hr] at a5 b5
    have no : ∀ {us : Toks} {t : Token} {d1 : Document}, (∀ u ∈ us, u.kind ≠ .eof) → t.kind = .illegal → parseTokens pf (us ++ [t]) ≠ .ok d1 := by
      intro us t d1 hu ht h
      obtain ⟨-, e, r, -, h3, h4⟩ := (parseTokens_doc (hasEnd_shape (.inr ht))).1 h
      obtain ⟨pre, hpre, -⟩ := many_eats (fun ts a r h => (locDefn_eats (pf := pf) (lax := true) h).1) h3
      have he : e ∈ us ++ [t] := by rw [hpre]; simp
      rcases List.mem_append.1 he with he | he
      · exact hu e he h4
      · cases List.mem_singleton.1 he
        rw [ht] at h4; cases h4
    have ne : ∀ {us : Toks}, us.map (fun t => (t.kind, t.lit)) = it1.map (fun i => (goKind i.tok.kind, utf8 i.tok.value)) → ∀ u ∈ us, u.kind ≠ .eof := by
      intro us hus u hu hk
      have : (u.kind, u.lit) ∈ us.map (fun t => (t.kind, t.lit)) := List.mem_map.2 ⟨u, hu, rfl⟩
      rw [hus] at this
      obtain ⟨i, -, hi⟩ := List.mem_map.1 this
      have := congrArg Prod.fst hi
      rw [show (u.kind, u.lit).fst = TokenKind.eof from hk] at this
      revert this
      show goKind i.tok.kind = .eof → False
      cases i.tok.kind <;> simp [goKind]
    constructor
    · rintro ⟨d1, l', k1, -⟩
      exact absurd ((hc d1).1 ⟨l', k1⟩) (no (ne a4) a5)
    · rintro ⟨d2, k1, -⟩
      exact absurd (hp.symm.trans k1) (no (ne b4) b5)

/-- C99: in a text whose characters all make tokens, a call that fails leaves a beginning of the text behind; the next call returns a document if and only if
the rest, parsed on its own, is one, and the document is the same but for the positions in it. -/
theorem C99_next (pf : Bytes → Option Nat) (cs : List Char) (h0 : '\x00' ∉ cs) (ts : List Token) (ht : tokens (utf8 cs) = .ret ts)
    (hi : ∀ t ∈ ts, t.kind ≠ .illegal) (e : PErr) (h : parse pf (utf8 cs) = .err e) :
    ∃ gone left l, cs = gone ++ left ∧ parseCall pf (newLexer (utf8 cs)) = .ret (.err e, l) ∧ l.pos = (utf8 gone).length ∧
      ∀ d, (∃ d1 l', parseCall pf l = .ret (.ok d1, l') ∧ noLoc d1 = noLoc d) ↔ ∃ d2, parse pf (utf8 left) = .ok d2 ∧ noLoc d2 = noLoc d := by
  have ht' : tokensF ((newLexer (utf8 cs)).input.length + 2) (newLexer (utf8 cs)) = .ret ts := ht
  have hone : parseTokens pf ts = .err e := by unfold parse at h; rw [ht] at h; exact h
  have hend := term_of_tokens ht
  rcases parseCall_cases (pf := pf) .new ht' with ⟨g1, -⟩ | ⟨r, l, g1, gs, g2, g3, -, -⟩
  · rw [hone] at g1; cases g1
  rw [hone] at g2
  have hr : parseDefs pf (ts.length + 1) ts = .err e r := by
    rcases g1 with ⟨ds, -, g1⟩ | ⟨e', g1, g4⟩
    · rw [hone] at g1; cases g1
    · rw [hone] at g4; cases g4; exact g1
  obtain ⟨c, s0, t, h1, h2, -⟩ := parseDefs_local pf _ hend hr
  have hle : ts.length - r.length + 1 ≤ ts.length := by
    obtain ⟨y, hy, hk⟩ := hend
    rw [h1] at hy
    have : r ≠ [] := by
      rintro rfl
      rw [List.append_nil] at hy
      exact hk.elim (h2 y hy).1 (h2 y hy).2
    have := List.length_pos_iff.2 this
    have h3 := congrArg List.length h1
    rw [List.length_append] at h3
    omega
  obtain ⟨gone, left, rfl, hat⟩ := scanTimes_between (at_new cs) (noNul_of h0) ht' hi hle gs
  have hin := g3.inv.1
  have heq := hat.eq
  rw [hin] at heq
  refine ⟨gone, left, l, rfl, g2, ?_, fun d => C99_what_is_left pf _ l g3 left (fun hm => h0 (List.mem_append_right _ hm)) heq d⟩
  have h5 := congrArg List.length heq
  rw [List.length_drop, utf8_append, List.length_append] at h5
  have h6 := g3.inv.2
  rw [utf8_append, List.length_append] at h6
  omega

/-- To compute a call on a literal. -/
theorem call_ok {pf : Bytes → Option Nat} {l l' : Lexer} {ts r : Toks} {ds : List Definition} (h : tokensF (l.input.length + 2) l = .ret ts)
    (h2 : parseDefs pf (ts.length + 1) ts = .ok ds r) (h3 : scanTimes (ts.length - r.length + 1) l = .ret l') :
    parseCall pf l = .ret (.ok (mkDocument ds), l') := by
  unfold parseCall; rw [h]; dsimp only; rw [h2]; dsimp only; rw [h3]; rfl

theorem call_err {pf : Bytes → Option Nat} {l l' : Lexer} {ts r : Toks} {e : PErr} (h : tokensF (l.input.length + 2) l = .ret ts)
    (h2 : parseDefs pf (ts.length + 1) ts = .err e r) (h3 : scanTimes (ts.length - r.length + 1) l = .ret l') :
    parseCall pf l = .ret (.err e, l') := by
  unfold parseCall; rw [h]; dsimp only; rw [h2]; dsimp only; rw [h3]; rfl

/-- C99 as stated is false: a NUL byte ends the text for one call only, and the next one reads on behind it. -/
theorem C99_refuted (pf : Bytes → Option Nat) :
    ∃ l d d', parseCall pf (newLexer (b!"{a}" ++ [0] ++ b!"{b}")) = .ret (.ok d, l) ∧ l.pos = 4 ∧ ∃ l', parseCall pf l = .ret (.ok d', l') ∧
      parse pf b!"{a}" = .ok d ∧ d'.operations = 1 ∧ d'.defs.map (·.loc) = [⟨1, 5⟩] :=
  ⟨⟨b!"{a}" ++ [0] ++ b!"{b}", 4, 4, 1⟩, _, _, call_ok (ts := [⟨.punctuator, b!"{", 1, 1⟩, ⟨.name, b!"a", 1, 2⟩, ⟨.punctuator, b!"}", 1, 3⟩, ⟨.eof, [], 1, 5⟩]) (by decide) rfl (by decide), rfl, _,
    call_ok (ts := [⟨.punctuator, b!"{", 1, 5⟩, ⟨.name, b!"b", 1, 6⟩, ⟨.punctuator, b!"}", 1, 7⟩, ⟨.eof, [], 1, 8⟩]) (by decide) rfl
      (l' := ⟨b!"{a}" ++ [0] ++ b!"{b}", 7, 7, 1⟩) (by decide), (parse_eq (ts := [⟨.punctuator, b!"{", 1, 1⟩, ⟨.name, b!"a", 1, 2⟩, ⟨.punctuator, b!"}", 1, 3⟩, ⟨.eof, [], 1, 4⟩]) (by decide) rfl), rfl, rfl⟩

/-- The token after a number out of range is lost: without that the second call would return a document. -/
theorem C99_lost (pf : Bytes → Option Nat) :
    ∃ l l', parseCall pf (newLexer b!"{a(b:9999999999999999999{c}") = .ret (.err (.atoi b!"9999999999999999999"), l) ∧
      parseCall pf l = .ret (.err (.unexpected ⟨.name, b!"c", 1, 26⟩ [b!"Name 'query|mutation|fragment'", b!"Punctuator '{'"]), l') :=
  ⟨⟨b!"{a(b:9999999999999999999{c}", 25, 25, 1⟩, ⟨b!"{a(b:9999999999999999999{c}", 26, 26, 1⟩,
    call_err (ts := [⟨.punctuator, b!"{", 1, 1⟩, ⟨.name, b!"a", 1, 2⟩, ⟨.punctuator, b!"(", 1, 3⟩, ⟨.name, b!"b", 1, 4⟩, ⟨.punctuator, b!":", 1, 5⟩, ⟨.intValue, b!"9999999999999999999", 1, 6⟩, ⟨.punctuator, b!"{", 1, 25⟩, ⟨.name, b!"c", 1, 26⟩, ⟨.punctuator, b!"}", 1, 27⟩, ⟨.eof, [], 1, 28⟩]) (by decide) rfl (by decide),
    call_err (ts := [⟨.name, b!"c", 1, 26⟩, ⟨.punctuator, b!"}", 1, 27⟩, ⟨.eof, [], 1, 28⟩]) (by decide) rfl (by decide)⟩

/-- An error, then a document, then nothing. -/
example (pf : Bytes → Option Nat) :
    ∃ l l' d, parseCall pf (newLexer b!") {a}") = .ret (.err (.unexpected ⟨.punctuator, b!")", 1, 1⟩ [b!"Name 'query|mutation|fragment'", b!"Punctuator '{'"]), l) ∧
      parseCall pf l = .ret (.ok d, l') ∧ 0 ∉ b!") {a}" ∧ Reach b!") {a}" l ∧ d.operations = 1 ∧
      parseCalls pf 2 l' = .ret ([nothingLeft ⟨.eof, [], 1, 6⟩, nothingLeft ⟨.eof, [], 1, 6⟩], l') :=
  ⟨⟨b!") {a}", 1, 1, 1⟩, ⟨b!") {a}", 5, 5, 1⟩, _, call_err (ts := [⟨.punctuator, b!")", 1, 1⟩, ⟨.punctuator, b!"{", 1, 3⟩, ⟨.name, b!"a", 1, 4⟩, ⟨.punctuator, b!"}", 1, 5⟩, ⟨.eof, [], 1, 6⟩]) (by decide) rfl (by decide),
    call_ok (ts := [⟨.punctuator, b!"{", 1, 3⟩, ⟨.name, b!"a", 1, 4⟩, ⟨.punctuator, b!"}", 1, 5⟩, ⟨.eof, [], 1, 6⟩]) (by decide) rfl (by decide), by decide,
    .scan .new (show scan (newLexer _) = .ret (⟨.punctuator, b!")", 1, 1⟩, _) by decide), rfl, calls_at_end pf _ rfl 2⟩

/-- The hypotheses of `C99_next` are met. -/
example (pf : Bytes → Option Nat) : '\x00' ∉ ") {a}".toList ∧ parse pf (utf8 ") {a}".toList) =
    .err (.unexpected ⟨.punctuator, b!")", 1, 1⟩ [b!"Name 'query|mutation|fragment'", b!"Punctuator '{'"]) ∧
    ∀ t ∈ ([⟨.punctuator, b!")", 1, 1⟩, ⟨.punctuator, b!"{", 1, 3⟩, ⟨.name, b!"a", 1, 4⟩, ⟨.punctuator, b!"}", 1, 5⟩, ⟨.eof, [], 1, 6⟩] : List Token), t.kind ≠ .illegal :=
  ⟨by decide, (parse_eq (ts := [⟨.punctuator, b!")", 1, 1⟩, ⟨.punctuator, b!"{", 1, 3⟩, ⟨.name, b!"a", 1, 4⟩, ⟨.punctuator, b!"}", 1, 5⟩, ⟨.eof, [], 1, 6⟩]) (by decide) rfl), by decide⟩

end GQL
