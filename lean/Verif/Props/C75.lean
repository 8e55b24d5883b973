/-
C75 A lexical error says what is wrong.

`Spec.LexError text message` (Spec/LexError.lean) lists the ways in which a text can fail to begin
with a token, each with its message; it mentions neither the model nor its helpers.
-/
import Verif.Props.C03
import Verif.Proofs.LexErrorTotal

namespace GQL
open Spec

/-- What is left is the end of the text. -/
theorem Lex.suffix {B} {pre cs items rest} (h : Lex B pre cs items rest) : ∃ a, cs = a ++ rest := by
  induction h with
  | done => exact ⟨[], rfl⟩
  | @ignore _ c _ _ _ _ _ ih => obtain ⟨a, e⟩ := ih; exact ⟨c :: a, by rw [e]; rfl⟩
  | @comment _ body _ _ _ _ _ _ ih => obtain ⟨a, e⟩ := ih; exact ⟨'#' :: body ++ a, by rw [e]; simp⟩
  | @token _ lx _ _ _ _ _ _ ih => obtain ⟨a, e⟩ := ih; exact ⟨lx ++ a, by rw [e]; simp⟩

theorem tokensF_message {n : Nat} {l : Lexer} {cs : List Char} (h : At l cs) (hz : NoNul cs)
    (hn : cs.length < n) {pre items rest} (hl : Lex GoBlock pre cs items rest) {m : List Char}
    (hm : LexError rest m) :
    ∃ toks last, tokensF n l = .ret (toks ++ [last]) ∧ last.kind = .illegal ∧ last.lit = utf8 m := by
  induction n generalizing l cs pre items with
  | zero => omega
  | succ n ih =>
    have hfin : ∀ {r : List Char}, NoNul r → LexError r m → Final GoBlock r := fun h1 h2 => .inr (lexError_stuck h1 h2)
    have hzr : NoNul rest := by
      obtain ⟨a, e⟩ := Lex.suffix hl
      rw [e] at hz; exact hz.right
    obtain ⟨ign, cs', lS, p1, p2, p3, p4, p5, p6, -, -⟩ := scanF_skip (n := l.fuel) h hz (fuel_length h)
    subst p1
    unfold tokensF scan
    rw [p6]
    obtain _ | ⟨c, cs'⟩ := cs'
    · obtain ⟨-, e⟩ := Lex.unique hz (p2 pre [] [] (.done _ _)) (.inl rfl) hl (hfin hzr hm)
      subst e
      obtain ⟨c, t, e, -⟩ := lexError_stuck hzr hm
      cases e
    · have hz' : NoNul (c :: cs') := hz.right
      by_cases hex : ∃ tok rest, Lexeme GoBlock (c :: cs') tok rest
      · obtain ⟨tok, r1, hlx⟩ := hex
        obtain ⟨lx, e, hne⟩ := lexeme_split hlx
        rw [e] at hlx p4 hz' hn p2 h hz hl ⊢
        obtain ⟨t, l', s1, s2⟩ := lexeme_complete hlx p4 hz'
        rw [s1]; dsimp only
        have hk : ¬ (t.kind = .eof ∨ t.kind = .illegal) := by
          rw [s2.kind]; cases tok.kind <;> simp [goKind]
        rw [if_neg hk]
        have hlen : r1.length < n := by
          have : 0 < lx.length := List.length_pos_iff.2 hne
          simp at hn; omega
        obtain ⟨items', rest', toks, last, q1, q2, -⟩ :=
          tokensF_at (n := r1.length + 1) (l := l') (cs := r1) s2.at' hz'.right (by omega) (pre ++ ign ++ lx)
        obtain ⟨e1, e2⟩ := Lex.unique hz (p2 _ _ _ (.token hlx q1)) q2 hl (hfin hzr hm)
        subst e2
        obtain ⟨toks, last, e1, e2, e3⟩ := ih s2.at' hz'.right hlen q1
        rw [e1]
        exact ⟨t :: toks, last, rfl, e2, e3⟩
      · have hst : Stuck GoBlock (c :: cs') :=
          ⟨c, cs', rfl, (p3 c cs' rfl).1, (p3 c cs' rfl).2, fun tok rest hh => hex ⟨tok, rest, hh⟩⟩
        obtain ⟨-, e⟩ := Lex.unique hz (p2 pre [] (c :: cs') (.done _ _)) (.inr hst) hl (hfin hzr hm)
        subst e
        obtain ⟨tk, l', e, hk, hlit⟩ := scanTok_refused p4 hz' hm
        rw [e]; dsimp only
        rw [if_pos (.inr hk)]
        exact ⟨[], tk, rfl, hk, hlit⟩

/-- C75: if, after the tokens at its beginning, a text goes on with `rest`, and `message` says what
is wrong with `rest`, then the last token is an Illegal one whose literal is `message`. -/
theorem C75_message (cs : List Char) (h : '\x00' ∉ cs) (items : List Item) (rest message : List Char)
    (hl : Lex GoBlock [] cs items rest) (hm : LexError rest message) :
    ∃ toks last, tokens (utf8 cs) = .ret (toks ++ [last]) ∧ last.kind = .illegal ∧
      last.lit = utf8 message :=
  tokensF_message (at_new cs) (noNul_of h) (by have := length_utf8_le cs; omega) hl hm

/-- Something is wrong exactly where neither a token nor a comment nor an ignored character begins. -/
theorem C75_total (rest : List Char) (h : '\x00' ∉ rest) :
    Stuck GoBlock rest ↔ ∃ message, LexError rest message := by
  constructor
  · rintro ⟨c, t, rfl, h1, h2, h3⟩
    rcases told (noNul_of h) h1 h2 with ⟨tok, r, hh⟩ | hh
    · exact absurd hh (h3 tok r)
    · exact hh
  · rintro ⟨m, hm⟩
    exact lexError_stuck (noNul_of h) hm

/-- There is one message only. -/
theorem C75_unique (rest : List Char) (h : '\x00' ∉ rest) (m₁ m₂ : List Char) (h₁ : LexError rest m₁)
    (h₂ : LexError rest m₂) : m₁ = m₂ := by
  have ha : At (newLexer (utf8 rest)) rest := at_new rest
  obtain ⟨t1, l1, e1, -, k1⟩ := scanTok_refused ha (noNul_of h) h₁
  obtain ⟨t2, l2, e2, -, k2⟩ := scanTok_refused ha (noNul_of h) h₂
  rw [e1] at e2
  cases e2
  exact utf8_inj (k1.symm.trans k2)

/-- Every Illegal token says what is wrong with the text that is left. -/
theorem C75_illegal (cs : List Char) (h : '\x00' ∉ cs) (toks : List Token) (last : Token)
    (ht : tokens (utf8 cs) = .ret (toks ++ [last])) (hk : last.kind = .illegal) :
    ∃ items rest message, Lex GoBlock [] cs items rest ∧ LexError rest message ∧
      last.lit = utf8 message := by
  obtain ⟨items, rest, toks', last', h1, h2, h3, -, h5⟩ := C03_tokens cs h
  have hr : rest ≠ [] := by
    rintro rfl
    rw [ht] at h3
    have e := (Out.ret.inj h3)
    obtain ⟨-, e2⟩ := List.append_inj' e rfl
    cases e2
    rw [hk, if_pos rfl] at h5; cases h5
  have hz : '\x00' ∉ rest := by
    obtain ⟨a, e⟩ := Lex.suffix h1
    rw [e] at h; exact fun hh => h (List.mem_append_right _ hh)
  obtain ⟨m, hm⟩ := (C75_total rest hz).1 (h2.resolve_left hr)
  obtain ⟨toks2, last2, e1, -, e3⟩ := C75_message cs h items rest m h1 hm
  rw [ht] at e1
  obtain ⟨-, e2⟩ := List.append_inj' (Out.ret.inj e1) rfl
  cases e2
  exact ⟨items, rest, m, h1, hm, e3⟩

/-- `{a(b:"x\q")}`: the escape is wrong. -/
example : ∃ items rest, Lex GoBlock [] "{a \"x\\q\"}".toList items rest ∧
    LexError rest "invalid character escape sequence: \\q".toList ∧
    (∃ toks last, tokens (utf8 "{a \"x\\q\"}".toList) = .ret (toks ++ [last]) ∧
      last.lit = b!"invalid character escape sequence: \\q") := by
  have hl : Lex GoBlock [] "{a \"x\\q\"}".toList
      [⟨⟨.punctuator, ['{']⟩, [], ['{']⟩, ⟨⟨.name, ['a']⟩, ['{'], ['a']⟩] "\"x\\q\"}".toList :=
    .token (lx := ['{']) (.punct _ _ (by decide)) <|
    .token (lx := ['a']) (.name 'a' [] _ rfl (by simp) (by intro c t e; cases e; rfl)) <|
    .ignore (by decide) (.done _ _)
  have he : LexError "\"x\\q\"}".toList "invalid character escape sequence: \\q".toList := by
    refine .string (by decide) (.escape (before := []) (e := ['q']) (after := []) ?_ (by simp) ?_)
    · exact .char (by decide) (by decide) (by decide)
        (.esc (s := ['q', '"', '}']) (by decide) (.stop (s := ['"', '}']) (.inl rfl)))
    · intro h
      generalize hq : ['q'] = e at h
      cases h with
      | simple h => cases hq; revert h; simp [escapeTable]
      | unicode => cases hq
  obtain ⟨toks, last, h1, -, h3⟩ := C75_message _ (by decide) _ _ _ hl he
  exact ⟨_, _, hl, he, toks, last, h1, h3.trans (by decide)⟩

/-- A few more messages. -/
example : LexError "01".toList "invalid number, unexpected digit after 0: '1'".toList ∧
    LexError "-x".toList "invalid number, expected digit but got: 'x'".toList ∧
    LexError "1.5e+\n".toList "invalid number, expected digit but got: '\\n'".toList ∧
    LexError "..a".toList "invalid punctuator, expected \"...\" but got: \"..a\"".toList ∧
    LexError "?".toList "?".toList ∧
    LexError "\"ab".toList "invalid character within string: '\\x00'".toList ∧
    LexError "\"\"\"a\"\"".toList "unexpected eof, probably unclosed block string".toList :=
  ⟨.zero (sign := []) (.inl rfl) rfl, .minus (fun c t h => by cases h; rfl),
    .exponent (i := ['1']) (f := ['.', '5']) (e := 'e') (s := ['+']) (t := ['\n'])
      (.pos '1' [] rfl (by decide) (by simp)) (.inr (.mk ['5'] (by simp [IsDigits]))) (.inl rfl) (.inr (.inl rfl))
      (fun c t h => by cases h; rfl),
    .dots (t := ['.', 'a']) (by decide), .char rfl (by decide) rfl (by decide) rfl,
    .string (s := ['a', 'b']) (by decide) (.stopped (es := []) (x := '\x00')
      (.char (by decide) (by decide) rfl (.char (by decide) (by decide) rfl (.stop (s := []) (.inr rfl)))) (by decide)),
    .unclosed (s := ['a', '"', '"']) (.char (by decide) (by decide) (.inl rfl) (.quote (by decide) .eof))⟩

end GQL
