/-
`Scan` against `Spec.Lexeme` and `Spec.Lex`.
-/
import Verif.Proofs.LexSkip

namespace GQL
open Spec

/-- The kind of Go token for a kind of token of the specification. -/
def goKind : Kind → TokenKind
  | .punctuator => .punctuator
  | .name => .name
  | .int => .intValue
  | .float => .floatValue
  | .string => .stringValue

/-- `Scan` after ignored characters and comments. -/
def scanTok (r w : Nat) (l0 : Lexer) : Out (Token × Lexer) :=
  if isNameStart r then scanName l0
  else if isPunct r then scanPunctuator l0 r w
  else if isDigit r ∨ r = 45 then scanNumber l0 r
  else if r = 34 then
    let (r1, w1, l1) := l0.rd
    let (r2, w2, l2) := l1.rd
    if r1 = 34 ∧ r2 = 34 then scanBlockString l2
    else scanString ((l2.unread w2).unread w1)
  else if r = 0 then .ret (⟨.eof, [], l0.line, l0.lpos + 1⟩, l0)
  else .ret (⟨.illegal, encodeRune r, l0.line, l0.lpos⟩, l0)

theorem Lex.ignAll {B} {pre ign text : List Char} {items rest} (h : ∀ c ∈ ign, ignored c = true)
    (hl : Lex B (pre ++ ign) text items rest) : Lex B pre (ign ++ text) items rest := by
  induction ign generalizing pre with
  | nil => simpa using hl
  | cons c ign ih =>
    refine .ignore (h c (List.mem_cons_self ..)) (ih (fun d hd => h d (List.mem_cons_of_mem _ hd)) ?_)
    simpa using hl

theorem term_ignored {term text : List Char} (h : Term term text) : ∀ c ∈ term, ignored c = true := by
  cases h <;> simp <;> decide

theorem term_head {term text : List Char} (h : Term term text) :
    ∀ c t, term ++ text = c :: t → lineTerm c = true := by
  cases h with
  | eof => intro c t hh; cases hh
  | lf => intro c t hh; cases hh; rfl
  | crlf => intro c t hh; cases hh; rfl
  | cr => intro c t hh; cases hh; rfl

theorem crlf_append {p : Bool} {a b : List Char} (h : crlf p (a ++ b)) : ∃ q, crlf q b := by
  induction a generalizing p with
  | nil => exact ⟨p, h⟩
  | cons c a ih => exact ih h.2

theorem CRfree.append {a b : List Char} (h1 : CRfree a) (h2 : CRfree b) : CRfree (a ++ b) :=
  fun c hc => (List.mem_append.1 hc).elim (h1 c) (h2 c)

theorem count_lineTerm {body : List Char} (h : ∀ c ∈ body, lineTerm c = false) (d : Char)
    (hd : lineTerm d = true) : body.count d = 0 := by
  rw [List.count_eq_zero]; intro hm; rw [h d hm] at hd; cases hd

/-- `Scan` skips ignored characters and comments and then scans a token. -/
theorem scanF_skip {n : Nat} {l : Lexer} {cs : List Char} (h : At l cs) (hz : NoNul cs)
    (hn : cs.length < n) :
    ∃ ign cs' lS, cs = ign ++ cs' ∧
      (∀ pre items rest, Lex GoBlock (pre ++ ign) cs' items rest → Lex GoBlock pre cs items rest) ∧
      (∀ c t, cs' = c :: t → ignored c = false ∧ c ≠ '#') ∧
      At lS cs' ∧ lS.input = l.input ∧
      scanF n l = scanTok (nxt cs') (nxtW cs') (lS.step cs') ∧
      (CRfree cs → lS.line = l.line + ign.count '\n' ∧ lS.lpos = colSkip l.lpos ign) ∧
      ((∃ p, crlf p cs) → (∀ c t, cs = c :: t → c ≠ '\n') →
        lS.line = l.line + ign.count '\r' ∧ ∃ q, crlf q cs') := by
  induction n generalizing l cs with
  | zero => omega
  | succ n ih =>
    unfold scanF
    obtain ⟨ign, cs', lS, p1, p2, p3, p4, p5, p6, p7, p8⟩ :=
      rns_at (n := l.fuel) (wasCR := false) h hz (fuel_length h)
    subst p1
    rw [p6]; dsimp only
    have hz' : NoNul cs' := hz.right
    have hc2 : ∀ {cs : List Char} p, crlf p cs → (∀ c t, cs = c :: t → c ≠ '\n') → crlf false cs := by
      intro cs p hp hh
      cases cs with
      | nil => trivial
      | cons c t => exact ⟨fun e => absurd e (hh c t rfl), hp.2⟩
    by_cases hc : nxt cs' = 35
    · obtain _ | ⟨c, cs'⟩ := cs'
      · cases hc
      have := toNat_inj (c := c) (d := '#') hc; subst this
      rw [show nxt ('#' :: cs') = 35 from rfl, if_neg (by decide), if_neg (by decide),
        if_neg (by decide), if_pos rfl]
      have a1 : At (lS.step ('#' :: cs')) cs' := p4.step
      obtain ⟨body, term, text, l', q1, q2, q3, q4, q5, q6, q7, q8⟩ :=
        comment_at (n := (lS.step ('#' :: cs')).fuel) a1 hz'.tail (fuel_length a1)
      rw [q6]; dsimp only
      subst q1
      have hzt : NoNul text := (hz'.tail.right (a := body)).right
      obtain ⟨ign2, cs'', lT, r1, r2, r3, r4, r5, r6, r7, r8⟩ := ih (l := l') (cs := text) q4 hzt
        (by simp at hn; omega)
      refine ⟨ign ++ ('#' :: body ++ (term ++ ign2)), cs'', lT, ?_, ?_, r3, r4, ?_, r6, ?_, ?_⟩
      · rw [r1]; simp
      · intro pre items rest hl
        apply Lex.ignAll p2
        have : '#' :: (body ++ (term ++ text)) = '#' :: body ++ (term ++ text) := rfl
        rw [this]
        apply Lex.comment q2 (term_head q3)
        apply Lex.ignAll (term_ignored q3)
        apply r2
        simpa using hl
      · rw [r5, q5]; exact p5
      · intro hcr
        have c1 : CRfree ign := hcr.left
        have c2 : CRfree (body ++ (term ++ text)) := hcr.right.tail
        obtain ⟨a1, a2⟩ := p7 rfl c1
        obtain ⟨b1, b2⟩ := q7 c2
        obtain ⟨d1, d2⟩ := r7 c2.right.right
        have st1 : (lS.step ('#' :: (body ++ (term ++ text)))).line = lS.line := rfl
        have st2 : (lS.step ('#' :: (body ++ (term ++ text)))).lpos = lS.lpos + 1 := rfl
        have e1 : ign ++ ('#' :: body ++ (term ++ ign2)) = ign ++ (['#'] ++ ((body ++ term) ++ ign2)) := by simp
        rw [e1]
        refine ⟨?_, ?_⟩
        · rw [d1, b1, st1, a1]
          simp only [List.count_append]
          rw [show ['#'].count '\n' = 0 by decide]; omega
        · rw [d2, b2, st2, a2]
          simp only [colSkip_append]; rfl
      · rintro ⟨p, hp⟩ hst
        have hp' := hc2 p hp hst
        obtain ⟨a1, q, hq⟩ := p8 false (by intro h; cases h) hp'
        obtain ⟨b1, ⟨q', hq'⟩, b3⟩ := q8 _ hq.2 (by decide)
        obtain ⟨d1, d2⟩ := r8 ⟨q', hq'⟩ b3
        have st1 : (lS.step ('#' :: (body ++ (term ++ text)))).line = lS.line := rfl
        have e1 : ign ++ ('#' :: body ++ (term ++ ign2)) = ign ++ (['#'] ++ ((body ++ term) ++ ign2)) := by simp
        rw [e1]
        refine ⟨?_, d2⟩
        rw [d1, b1, st1, a1]
        simp only [List.count_append]
        rw [show ['#'].count '\r' = 0 by decide]; omega
    · refine ⟨ign, cs', lS, rfl, ?_, ?_, p4, p5, ?_, ?_, ?_⟩
      · intro pre items rest hl; exact Lex.ignAll p2 hl
      · rintro c t rfl
        exact ⟨p3 c t rfl, fun hh => hc (by rw [hh]; rfl)⟩
      · unfold scanTok; rw [if_neg hc]
      · intro hcr; exact p7 rfl hcr.left
      · rintro ⟨p, hp⟩ hst
        exact p8 false (by intro h; cases h) (hc2 p hp hst)

/-- Number of lines added by a token: the LFs of the raw value of a block string. -/
theorem goBlock_count {s raw rest lx : List Char} (h : GoBlockText s raw rest) (hs : s = lx ++ rest)
    (hc : CRfree lx) : raw.count '\n' = lx.count '\n' := by
  induction h generalizing lx with
  | close rest =>
    have : lx = quotes3 := (List.append_cancel_right (show quotes3 ++ rest = lx ++ rest from hs)).symm
    subst this; rfl
  | @esc s v rest h ih =>
    obtain ⟨lx', e'⟩ := h.split
    have hlx : lx = '\\' :: quotes3 ++ lx' := by
      rw [e', ← List.append_assoc] at hs; exact (List.append_cancel_right hs).symm
    subst hlx
    rw [List.count_append, List.count_append, ih e' hc.right]
    rfl
  | @pair c s v rest hq h ih =>
    obtain ⟨lx', e'⟩ := h.split
    have hlx : lx = '\\' :: c :: lx' := by
      rw [e', ← List.cons_append, ← List.cons_append] at hs; exact (List.append_cancel_right hs).symm
    subst hlx
    rw [List.count_cons, List.count_cons, List.count_cons, List.count_cons, ih e' hc.tail.tail]
  | @cr s v rest h ih =>
    obtain ⟨lx', e'⟩ := h.split
    have hlx : lx = '\r' :: lx' := by
      rw [e', ← List.cons_append] at hs; exact (List.append_cancel_right hs).symm
    subst hlx
    exact absurd rfl hc.head
  | @char c s v rest h1 h2 h3 h4 h ih =>
    obtain ⟨lx', e'⟩ := h.split
    have hlx : lx = c :: lx' := by
      rw [e', ← List.cons_append] at hs; exact (List.append_cancel_right hs).symm
    subst hlx
    rw [List.count_cons, List.count_cons, ih e' hc.tail]

theorem splitLF_length (s : List Char) : (splitLF s).length = 1 + s.count '\n' := by
  induction s with
  | nil => rfl
  | cons c s ih =>
    rw [splitLF]
    split
    · subst_vars; rw [List.length_cons, ih, List.count_cons_self]; omega
    · rename_i h
      rw [List.count_cons_of_ne h]
      cases e : splitLF s with
      | nil => exact absurd e (splitLF_ne_nil _)
      | cons a r => rw [e] at ih; exact ih

theorem lexeme_head {c : Char} {t rest : List Char} {tok : Tok} (h : Lexeme GoBlock (c :: t) tok rest) :
    (nameStart c = true) ∨ c ∈ punctuators ∨ c = '.' ∨ c.isDigit = true ∨ c = '-' ∨ c = '"' := by
  generalize hs : c :: t = s at h
  have num : ∀ {i x}, IsIntegerPart i → c :: t = i ++ x → c.isDigit = true ∨ c = '-' := by
    intro i x hi e
    obtain ⟨d, w, rfl, -, hd⟩ := intPart_head hi
    rw [List.cons_append] at e; cases e; exact hd
  cases h with
  | punct d rest hd => cases hs; exact .inr (.inl hd)
  | spread rest => cases hs; exact .inr (.inr (.inl rfl))
  | name d w rest hd => rw [List.cons_append] at hs; cases hs; exact .inl hd
  | int i rest hi =>
    rcases num hi hs with h | h
    · exact .inr (.inr (.inr (.inl h)))
    · exact .inr (.inr (.inr (.inr (.inl h))))
  | fraction i f rest hi =>
    rw [List.append_assoc] at hs
    rcases num hi hs with h | h
    · exact .inr (.inr (.inr (.inl h)))
    · exact .inr (.inr (.inr (.inr (.inl h))))
  | exponent i f rest hi =>
    rw [List.append_assoc] at hs
    rcases num hi hs with h | h
    · exact .inr (.inr (.inr (.inl h)))
    · exact .inr (.inr (.inr (.inr (.inl h))))
  | fracExp i f e rest hi =>
    rw [List.append_assoc, List.append_assoc] at hs
    rcases num hi hs with h | h
    · exact .inr (.inr (.inr (.inl h)))
    · exact .inr (.inr (.inr (.inr (.inl h))))
  | string h => cases hs; exact .inr (.inr (.inr (.inr (.inr rfl))))
  | block h => cases hs; exact .inr (.inr (.inr (.inr (.inr rfl))))

/-- After a comment sign or an ignored character there is no token. -/
theorem lexeme_not_ignored {c : Char} {t rest : List Char} {tok : Tok}
    (h : Lexeme GoBlock (c :: t) tok rest) : ignored c = false ∧ c ≠ '#' := by
  have key : ∀ n : Nat, c.toNat = n → (isNameStart n = true ∨ isPunct n = true ∨ isDigit n = true ∨
      n = 45 ∨ n = 34) → ignored c = false ∧ c ≠ '#' := by
    intro n hn h
    have e : c ≠ '#' ↔ c.toNat ≠ 35 := by rw [Ne, ← toNat_eq]; rfl
    rw [e]
    have hi : ignored c = false ↔ ¬ (c.toNat = 13 ∨ c.toNat = 10 ∨ c.toNat = 9 ∨ c.toNat = 32 ∨
        c.toNat = 44 ∨ c.toNat = 0xFEFF) := by
      rw [← ignored_nat]; simp
    rw [hi, hn]
    simp only [isNameStart, isPunct, isDigit, Bool.or_eq_true, Bool.and_eq_true, decide_eq_true_eq,
      beq_iff_eq] at h
    omega
  rcases lexeme_head h with h | h | h | h | h | h
  · exact key _ rfl (.inl (by rw [isNameStart_char]; exact h))
  · exact key _ rfl (.inr (.inl (by rw [isPunct_char]; simp [h])))
  · exact key _ rfl (.inr (.inl (by rw [isPunct_char]; simp [h])))
  · exact key _ rfl (.inr (.inr (.inl (by rw [isDigit_char]; exact h))))
  · exact key _ rfl (.inr (.inr (.inr (.inl (by rw [h]; rfl)))))
  · exact key _ rfl (.inr (.inr (.inr (.inr (by rw [h]; rfl)))))

theorem scanTok_name {c : Char} {w : Nat} {l : Lexer} (h : nameStart c = true) :
    scanTok c.toNat w l = scanName l := by
  unfold scanTok; rw [isNameStart_char, h, if_pos rfl]

theorem scanTok_punct {c : Char} {w : Nat} {l : Lexer} (h : c ∈ punctuators ∨ c = '.') :
    scanTok c.toNat w l = scanPunctuator l c.toNat w := by
  have hp : isPunct c.toNat = true := by
    rw [isPunct_char]; rcases h with h | h <;> simp [h]
  have hn : isNameStart c.toNat = false := by
    cases hh : isNameStart c.toNat with
    | false => rfl
    | true =>
      exfalso
      simp only [isNameStart, isPunct, Bool.or_eq_true, Bool.and_eq_true, decide_eq_true_eq,
        beq_iff_eq] at hh hp
      omega
  unfold scanTok; rw [hn, if_neg (by simp), hp, if_pos rfl]

theorem scanTok_number {c : Char} {w : Nat} {l : Lexer} (h : c.isDigit = true ∨ c = '-') :
    scanTok c.toNat w l = scanNumber l c.toNat := by
  have hp : isDigit c.toNat = true ∨ c.toNat = 45 := by
    rcases h with h | h
    · left; rw [isDigit_char]; exact h
    · right; rw [h]; rfl
  have hn : isNameStart c.toNat = false ∧ isPunct c.toNat = false := by
    constructor
    · cases hh : isNameStart c.toNat with
      | false => rfl
      | true =>
        exfalso
        simp only [isNameStart, isDigit, Bool.or_eq_true, Bool.and_eq_true, decide_eq_true_eq,
          beq_iff_eq] at hh hp
        omega
    · cases hh : isPunct c.toNat with
      | false => rfl
      | true =>
        exfalso
        simp only [isPunct, isDigit, Bool.or_eq_true, Bool.and_eq_true, decide_eq_true_eq,
          beq_iff_eq] at hh hp
        omega
  unfold scanTok; rw [hn.1, if_neg (by simp), hn.2, if_neg (by simp), if_pos hp]

/-- The string branch of `Scan`. -/
def scanQuote (l0 : Lexer) : Out (Token × Lexer) :=
  let (r1, w1, l1) := l0.rd
  let (r2, w2, l2) := l1.rd
  if r1 = 34 ∧ r2 = 34 then scanBlockString l2
  else scanString ((l2.unread w2).unread w1)

theorem scanTok_quote {w : Nat} {l : Lexer} : scanTok 34 w l = scanQuote l := by
  unfold scanTok
  rw [if_neg (by decide), if_neg (by decide), if_neg (by decide), if_pos rfl]; rfl

theorem scanQuote_block {l : Lexer} {s : List Char} (h : At l ('"' :: '"' :: s)) :
    scanQuote l = scanBlockString (l.advs ['"', '"']) := by
  unfold scanQuote
  rw [rd_cons h]; dsimp only
  rw [rd_cons h.adv1]; dsimp only
  rw [if_pos (show ('"').toNat = 34 ∧ ('"').toNat = 34 by decide), ← advs_append]; rfl

/-- The lexer with which `scanString` starts: the column counter is too small when fewer than two
characters follow the opening quote. -/
theorem scanQuote_string {l : Lexer} {s : List Char} (h : At l s)
    (hn : ∀ t, s ≠ '"' :: '"' :: t) :
    ∃ lp, scanQuote l = scanString { l with lpos := lp } ∧ (2 ≤ s.length → lp = l.lpos) := by
  unfold scanQuote
  rw [rd_at h]; dsimp only
  rw [rd_at h.step]; dsimp only
  obtain _ | ⟨a, _ | ⟨b, s⟩⟩ := s
  · rw [if_neg (by rintro ⟨h, -⟩; cases h)]
    refine ⟨l.lpos - 1 - 1, ?_, by simp⟩
    rfl
  · rw [if_neg (by rintro ⟨-, h⟩; cases h)]
    refine ⟨l.lpos + 1 - 1 - 1, ?_, by simp⟩
    show scanString (((l.advs [a]).unread 0).unread (cw a)) = _
    rw [advs_one]; simp [Lexer.unread]
  · rw [if_neg (by
      rintro ⟨h1, h2⟩
      have e1 := toNat_inj (c := a) (d := '"') h1
      have e2 := toNat_inj (c := b) (d := '"') h2
      subst e1 e2; exact hn s rfl)]
    refine ⟨l.lpos, ?_, fun _ => rfl⟩
    show scanString ((((l.advs [a]).advs [b]).unread (cw b)).unread (cw a)) = _
    rw [unread_adv, unread_adv]

/-- What a token does to the lexer. -/
structure Scanned (lS : Lexer) (lx rest : List Char) (tok : Tok) (t : Token) (l' : Lexer) : Prop where
  kind : t.kind = goKind tok.kind
  lit : t.lit = utf8 tok.value
  line : t.line = lS.line
  col : ¬ (lx = ['"', '"'] ∧ rest = []) → t.col = (lS.lpos + 1 : Nat)
  at' : At l' rest
  input : l'.input = lS.input
  lineCRfree : CRfree lx → l'.line = lS.line + lx.count '\n'
  lineSingle : (∀ c ∈ lx, lineTerm c = false) → l'.line = lS.line
  lpos : (∀ c ∈ lx, c ≠ '\n') → ¬ (lx = ['"', '"'] ∧ rest = []) → l'.lpos = lS.lpos + lx.length

theorem strText_noLF {s v rest lx : List Char} (h : StrText s v rest) (hs : s = lx ++ rest) :
    ∀ c ∈ lx, c ≠ '\n' := by
  have hexne : ∀ {a i}, hexVal a = some i → a ≠ '\n' := by
    rintro a i h rfl; rw [show hexVal '\n' = none by decide] at h; cases h
  induction h generalizing lx with
  | close rest =>
    have : lx = ['"'] := (List.append_cancel_right (show ['"'] ++ rest = lx ++ rest from hs)).symm
    subst this; simp
  | char c h1 h2 h3 h4 ih =>
    obtain ⟨lx', e⟩ := h4.split
    have : lx = c :: lx' := by
      rw [e, ← List.cons_append] at hs; exact (List.append_cancel_right hs).symm
    subst this
    intro d hd
    rcases List.mem_cons.1 hd with rfl | hd
    · rintro rfl; revert h3; decide
    · exact ih e d hd
  | esc e x h1 h2 ih =>
    obtain ⟨lx', e'⟩ := h2.split
    have : lx = '\\' :: e :: lx' := by
      rw [e', ← List.cons_append, ← List.cons_append] at hs; exact (List.append_cancel_right hs).symm
    subst this
    intro d hd
    rcases List.mem_cons.1 hd with rfl | hd
    · decide
    rcases List.mem_cons.1 hd with rfl | hd
    · rintro rfl
      rw [simpleEscape_table] at h1; simp [simpleEscape] at h1
    · exact ih e' d hd
  | @unicode a b c d i j k m s v rest h1 h2 h3 h4 h5 ih =>
    obtain ⟨lx', e'⟩ := h5.split
    have : lx = '\\' :: 'u' :: a :: b :: c :: d :: lx' := by
      rw [e'] at hs; simp only [← List.cons_append] at hs; exact (List.append_cancel_right hs).symm
    subst this
    intro x hx
    simp only [List.mem_cons] at hx
    rcases hx with rfl | rfl | rfl | rfl | rfl | rfl | hx
    · decide
    · decide
    · exact hexne h1
    · exact hexne h2
    · exact hexne h3
    · exact hexne h4
    · exact ih e' x hx

/-- `Scan` returns the token at which the lexer stands. -/
theorem lexeme_complete {lS : Lexer} {lx rest : List Char} {tok : Tok}
    (h : Lexeme GoBlock (lx ++ rest) tok rest) (ha : At lS (lx ++ rest)) (hz : NoNul (lx ++ rest)) :
    ∃ t l', scanTok (nxt (lx ++ rest)) (nxtW (lx ++ rest)) (lS.step (lx ++ rest)) = .ret (t, l') ∧
      Scanned lS lx rest tok t l' := by
  have hzr : NoNul rest := hz.right
  -- tokens that contain no quote and no LF
  have plain : ∀ {lx' : List Char} {t : Token} {l' : Lexer}, lx' = lx → (∀ c ∈ lx', c ≠ '\n' ∧ c ≠ '"') → t.kind = goKind tok.kind →
      t.lit = utf8 tok.value →
      t.line = lS.line → t.col = (lS.lpos + 1 : Nat) → l' = lS.advs lx' → Scanned lS lx rest tok t l' := by
    rintro lx' t l' rfl hc hk hl hli hcol rfl
    refine ⟨hk, hl, hli, fun _ => hcol, ha.advs, rfl, ?_, fun _ => rfl, fun _ _ => rfl⟩
    intro _
    have : lx'.count '\n' = 0 := List.count_eq_zero.2 (fun hm => (hc _ hm).1 rfl)
    rw [this]; rfl
  have digitOk : ∀ {c : Char}, c.isDigit = true → c ≠ '\n' ∧ c ≠ '"' := by
    intro c hc; constructor <;> (rintro rfl; revert hc; decide)
  have intOk : ∀ {i}, IsIntegerPart i → ∀ c ∈ i, c ≠ '\n' ∧ c ≠ '"' := by
    intro i hi
    cases hi with
    | zero => decide
    | negZero => decide
    | pos c ds h1 h2 h3 =>
      intro d hd
      rcases List.mem_cons.1 hd with rfl | hd
      · exact digitOk h1
      · exact digitOk (h3 d hd)
    | neg c ds h1 h2 h3 =>
      intro d hd
      simp only [List.mem_cons] at hd
      rcases hd with rfl | rfl | hd
      · decide
      · exact digitOk h1
      · exact digitOk (h3 d hd)
  have fracOk : ∀ {i}, IsFraction i → ∀ c ∈ i, c ≠ '\n' ∧ c ≠ '"' := by
    rintro i ⟨ds, hds⟩ d hd
    rcases List.mem_cons.1 hd with rfl | hd
    · decide
    · exact digitOk (hds.2 d hd)
  have expOk : ∀ {i}, IsExponent i → ∀ c ∈ i, c ≠ '\n' ∧ c ≠ '"' := by
    rintro i (⟨e, ds, he, hds⟩ | ⟨e, s, ds, he, hse, hds⟩) d hd
    · rcases List.mem_cons.1 hd with rfl | hd
      · rcases he with rfl | rfl <;> decide
      · exact digitOk (hds.2 d hd)
    · simp only [List.mem_cons] at hd
      rcases hd with rfl | rfl | hd
      · rcases he with rfl | rfl <;> decide
      · rcases hse with rfl | rfl <;> decide
      · exact digitOk (hds.2 d hd)
  have appOk : ∀ {a b : List Char}, (∀ c ∈ a, c ≠ '\n' ∧ c ≠ '"') → (∀ c ∈ b, c ≠ '\n' ∧ c ≠ '"') →
      ∀ c ∈ a ++ b, c ≠ '\n' ∧ c ≠ '"' := by
    intro a b h1 h2 c hc
    rcases List.mem_append.1 hc with hc | hc
    · exact h1 c hc
    · exact h2 c hc
  generalize hs : lx ++ rest = s at h ha hz
  cases h with
  | punct c rest hc =>
    have e := (List.append_cancel_right (show lx ++ rest = [c] ++ rest from hs))
    refine ⟨_, _, (scanTok_punct (.inl hc)).trans (scanPunct_at ha hc), ?_⟩
    subst e
    rw [← hs] at ha
    refine plain rfl ?_ rfl rfl rfl rfl rfl
    intro d hd; simp only [List.mem_singleton] at hd; subst hd
    constructor <;> (rintro rfl; revert hc; decide)
  | spread rest =>
    have e := (List.append_cancel_right (show lx ++ rest = ['.', '.', '.'] ++ rest from hs))
    rcases scanSpread_at ha (nxtW ('.' :: '.' :: '.' :: rest)) hz.tail with ⟨r', e1, e2⟩ | ⟨e1, -⟩
    · cases e1
      refine ⟨_, _, (scanTok_punct (c := '.') (.inr rfl)).trans e2, ?_⟩
      subst e
      rw [← hs] at ha
      exact plain rfl (by decide) rfl rfl rfl rfl rfl
    · exact absurd rfl (e1 rest)
  | name c w rest h1 h2 h3 =>
    have e := (List.append_cancel_right hs)
    subst e
    refine ⟨_, _, (scanTok_name h1).trans (scanName_at ha h1 h2 h3 hzr), ?_⟩
    refine plain rfl ?_ rfl rfl rfl rfl rfl
    intro d hd
    have hn : nameCont d = true := by
      rcases List.mem_cons.1 hd with rfl | hd
      · exact nameCont_of_start h1
      · exact h2 d hd
    constructor <;> (rintro rfl; revert hn; decide)
  | int i rest hi hr =>
    have e := (List.append_cancel_right hs)
    subst e
    obtain ⟨c, w, rfl, hc, hcd⟩ := intPart_head hi
    have hr1 : notNext Char.isDigit rest := by
      intro d t hd; have := hr d t hd; simp only [Bool.or_eq_false_iff] at this; exact this.1.1.1
    have hr2 : notNext (· == '.') rest := by
      intro d t hd; have := hr d t hd; simp only [Bool.or_eq_false_iff] at this; exact this.1.1.2
    have hr3 : notNext (fun c => c == 'e' || c == 'E') rest := by
      intro d t hd; have := hr d t hd; simp only [Bool.or_eq_false_iff] at this ⊢; exact ⟨this.1.2, this.2⟩
    refine ⟨_, _, (scanTok_number hcd).trans ((scanNumber_at ha hi hr1).trans
      ((numberFrac_none hr2).trans (numberExp_none false ha hc hzr hr3))), ?_⟩
    exact plain rfl (intOk hi) rfl rfl rfl rfl rfl
  | fraction i f rest hi hf hr =>
    have e := (List.append_cancel_right hs)
    subst e
    obtain ⟨c, w, rfl, hc, hcd⟩ := intPart_head hi
    have hr1 : notNext Char.isDigit rest := by
      intro d t hd; have := hr d t hd; simp only [Bool.or_eq_false_iff] at this; exact this.1.1
    have hr3 : notNext (fun c => c == 'e' || c == 'E') rest := by
      intro d t hd; have := hr d t hd; simp only [Bool.or_eq_false_iff] at this ⊢; exact ⟨this.1.2, this.2⟩
    rw [List.append_assoc] at ha
    have hfd : notNext Char.isDigit (f ++ rest) := by
      cases hf; intro d t hd; cases hd; decide
    have ha2 : At lS (c :: (w ++ f) ++ rest) := by simpa using ha
    rw [List.append_assoc]
    refine ⟨_, _, (scanTok_number hcd).trans ((scanNumber_at ha hi hfd).trans
      ((numberFrac_at ha hf hr1).trans (numberExp_none true ha2 hc hzr hr3))), ?_⟩
    refine plain (lx' := c :: (w ++ f)) rfl (appOk (intOk hi) (fracOk hf)) rfl rfl rfl rfl rfl
  | exponent i f rest hi hf hr =>
    have e := (List.append_cancel_right hs)
    subst e
    obtain ⟨c, w, rfl, hc, hcd⟩ := intPart_head hi
    rw [List.append_assoc] at ha
    have hfd : notNext Char.isDigit (f ++ rest) ∧ notNext (· == '.') (f ++ rest) := by
      rcases hf with ⟨e, ds, rfl | rfl, -⟩ | ⟨e, s, ds, rfl | rfl, -, -⟩ <;>
        exact ⟨by intro d t hd; cases hd; decide, by intro d t hd; cases hd; decide⟩
    rw [List.append_assoc]
    refine ⟨_, _, (scanTok_number hcd).trans ((scanNumber_at ha hi hfd.1).trans
      ((numberFrac_none hfd.2).trans (numberExp_complete false ha hc hzr hf hr))), ?_⟩
    refine plain (lx' := c :: w ++ f) rfl (appOk (intOk hi) (expOk hf)) rfl rfl rfl rfl rfl
  | fracExp i f e rest hi hf he hr =>
    have e' := (List.append_cancel_right hs)
    subst e'
    obtain ⟨c, w, rfl, hc, hcd⟩ := intPart_head hi
    have hfd : notNext Char.isDigit (f ++ (e ++ rest)) := by
      cases hf; intro d t hd; cases hd; decide
    have hed : notNext Char.isDigit (e ++ rest) := by
      rcases he with ⟨e, ds, rfl | rfl, -⟩ | ⟨e, s, ds, rfl | rfl, -, -⟩ <;>
        (intro d t hd; cases hd; decide)
    rw [List.append_assoc, List.append_assoc] at ha
    have ha2 : At lS (c :: (w ++ f) ++ (e ++ rest)) := by simpa using ha
    rw [List.append_assoc, List.append_assoc]
    refine ⟨_, _, (scanTok_number hcd).trans ((scanNumber_at ha hi hfd).trans
      ((numberFrac_at ha hf hed).trans (numberExp_complete true ha2 hc hzr he hr))), ?_⟩
    refine plain (lx' := c :: (w ++ f) ++ e) (by simp) (by
      have := appOk (appOk (intOk hi) (fracOk hf)) (expOk he)
      simpa using this) rfl ?_ rfl rfl rfl
    simp
  | @string s v rest hst hv =>
    obtain ⟨lx', e⟩ := hst.split
    have hlx : lx = '"' :: lx' := by
      rw [e, ← List.cons_append] at hs; exact List.append_cancel_right hs
    subst hlx
    have a1 : At (lS.step ('"' :: s)) s := ha.step
    have hnb : ∀ t, s ≠ '"' :: '"' :: t := by
      rintro t rfl
      cases hst with
      | close => have := hv rfl _ _ rfl; revert this; decide
      | char c h => exact h rfl
    obtain ⟨lp, e1, e2⟩ := scanQuote_string a1 hnb
    refine ⟨_, _, scanTok_quote.trans (e1.trans (scanString_complete hst e ⟨a1.le, a1.eq⟩)), ?_⟩
    have hlp : ¬ ('"' :: lx' = ['"', '"'] ∧ rest = []) → lp = (lS.step ('"' :: s)).lpos := by
      intro hne
      apply e2
      cases hst with
      | close =>
        have : lx' = ['"'] := (List.append_cancel_right (show ['"'] ++ rest = lx' ++ rest from e)).symm
        subst this
        cases rest with
        | nil => exact absurd ⟨rfl, rfl⟩ hne
        | cons d t => simp
      | char c h1 h2 h3 h4 => cases h4 <;> simp
      | esc => simp
      | unicode => simp
    have hnoLF : ∀ c ∈ '"' :: lx', c ≠ '\n' := by
      intro c hc
      rcases List.mem_cons.1 hc with rfl | hc
      · decide
      · exact strText_noLF hst e c hc
    refine ⟨rfl, rfl, rfl, ?_, ?_, rfl, ?_, fun _ => rfl, ?_⟩
    · intro hne; simp only [hlp hne]; rfl
    · exact At.advs (a := lx') (b := rest) ⟨a1.le, by rw [← e]; exact a1.eq⟩
    · intro _
      rw [List.count_eq_zero.2 (fun hm => hnoLF _ hm rfl)]; rfl
    · intro _ hne
      rw [advs_lpos, hlp hne]
      show lS.lpos + 1 + lx'.length = _
      simp; omega
  | @block s v rest hb =>
    obtain ⟨raw, hgt, rfl⟩ := hb
    obtain ⟨lx', e⟩ := hgt.split
    have hlx : lx = quotes3 ++ lx' := by
      rw [e, ← List.append_assoc] at hs; exact List.append_cancel_right hs
    subst hlx
    have ha' : At lS ('"' :: '"' :: '"' :: s) := ha
    have a1 : At (lS.step ('"' :: '"' :: '"' :: s)) ('"' :: '"' :: s) := ha'.step
    have a3 : At ((lS.step ('"' :: '"' :: '"' :: s)).advs ['"', '"']) s := At.advs (a := ['"', '"']) a1
    have hzs : NoNul s := hz.right (a := quotes3)
    have hfin := scanBlock_complete hgt e a3 hzs
    refine ⟨_, _, scanTok_quote.trans ((scanQuote_block a1).trans hfin), ?_⟩
    have hne : ¬ (quotes3 ++ lx' = ['"', '"'] ∧ rest = []) := by rintro ⟨h, -⟩; cases h
    have hl0 : ((lS.step ('"' :: '"' :: '"' :: s)).advs ['"', '"']).line = lS.line := rfl
    have hl1 : ((lS.step ('"' :: '"' :: '"' :: s)).advs ['"', '"']).lpos = lS.lpos + 3 := rfl
    refine ⟨rfl, rfl, rfl, ?_, ?_, rfl, ?_, ?_, ?_⟩
    · intro _
      show (((lS.step ('"' :: '"' :: '"' :: s)).advs ['"', '"']).lpos : Int) - 2 = _
      rw [hl1]; push_cast; omega
    · have := (At.advs (a := lx') (b := rest) ⟨a3.le, by rw [← e]; exact a3.eq⟩)
      exact ⟨this.le, this.eq⟩
    · intro hc
      show _ + ((splitLF raw).length - 1) = _
      rw [hl0, splitLF_length, goBlock_count hgt e hc.right, List.count_append]
      rw [show quotes3.count '\n' = 0 by decide]; omega
    · intro hc
      show _ + ((splitLF raw).length - 1) = _
      have hcr : CRfree lx' := by
        intro c hcm hcc
        have := hc c (List.mem_append_right _ hcm); rw [hcc] at this; revert this; decide
      rw [hl0, splitLF_length, goBlock_count hgt e hcr,
        count_lineTerm (fun c hcm => hc c (List.mem_append_right _ hcm)) '\n' (by decide)]
      rfl
    · intro _ _
      show ((lS.step ('"' :: '"' :: '"' :: s)).advs ['"', '"']).lpos + lx'.length = _
      rw [hl1]; simp [quotes3]; omega

/-- If no token begins here `Scan` returns an Illegal token. -/
theorem lexeme_sound {lS : Lexer} {c : Char} {t : List Char} (ha : At lS (c :: t)) (hz : NoNul (c :: t)) :
    (∃ tok rest, Lexeme GoBlock (c :: t) tok rest) ∨
    ∃ tk l', scanTok c.toNat (cw c) (lS.advs [c]) = .ret (tk, l') ∧ tk.kind = .illegal := by
  by_cases hns : nameStart c = true
  · left
    obtain ⟨w, rest, e, h1, h2⟩ := span nameCont t
    subst e
    exact ⟨_, _, .name c w rest hns h1 h2⟩
  by_cases hp : c ∈ punctuators
  · exact .inl ⟨_, _, .punct c t hp⟩
  by_cases hdot : c = '.'
  · subst hdot
    rcases scanSpread_at ha (cw '.') hz.tail with ⟨r', rfl, -⟩ | ⟨-, tk, l', e, hk⟩
    · exact .inl ⟨_, _, .spread r'⟩
    · right
      exact ⟨tk, l', (scanTok_punct (c := '.') (.inr rfl)).trans e, hk⟩
  by_cases hd : c.isDigit = true ∨ c = '-'
  · rcases scanNumber_sound ha hd with ⟨w, rest, rfl, hi, hr⟩ | ⟨tk, l', e, hk⟩
    · have hc : c.toNat < 128 := by
        rcases hd with hd | rfl
        · exact digit_ascii hd
        · decide
      have hsc := scanNumber_at (w := w) (rest := rest) ha hi hr
      obtain _ | ⟨x, rest⟩ := rest
      · exact .inl ⟨_, _, .int (c :: w) [] hi (by intro d t h; cases h)⟩
      by_cases hx : x = '.'
      · subst hx
        rcases numberFrac_sound (w := w) ha with ⟨f, rest', e, hf, hr'⟩ | ⟨tk, l', e, hk⟩
        · rw [e] at ha hr hsc ⊢
          have hfr := numberFrac_at ha hf hr'
          have ha2 : At lS (c :: (w ++ f) ++ rest') := by simpa using ha
          have hwf : c :: (w ++ (f ++ rest')) = (c :: w) ++ f ++ rest' := by simp
          rw [hwf]
          obtain _ | ⟨y, rest'⟩ := rest'
          · exact .inl ⟨_, _, .fraction (c :: w) f [] hi hf (by intro d t h; cases h)⟩
          by_cases hy : y = 'e' ∨ y = 'E'
          · rcases numberExp_sound (w := w ++ f) true ha2 hy with ⟨ex, r2, e2, hex, hr2⟩ | ⟨tk, l', e2, hk⟩
            · left
              rw [e2, ← List.append_assoc]
              exact ⟨_, _, .fracExp (c :: w) f ex r2 hi hf hex hr2⟩
            · right
              exact ⟨tk, l', (scanTok_number hd).trans (hsc.trans (hfr.trans e2)), hk⟩
          · refine .inl ⟨_, _, .fraction (c :: w) f _ hi hf ?_⟩
            intro d t h; cases h
            have h1 := hr' _ _ rfl
            simp only [not_or] at hy
            simp [h1, hy.1, hy.2]
        · right
          exact ⟨tk, l', (scanTok_number hd).trans (hsc.trans e), hk⟩
      · have hnd : notNext (· == '.') (x :: rest) := by intro d t h; cases h; simpa using hx
        by_cases hy : x = 'e' ∨ x = 'E'
        · rcases numberExp_sound (w := w) false ha hy with ⟨ex, r2, e2, hex, hr2⟩ | ⟨tk, l', e2, hk⟩
          · left
            rw [e2, ← List.cons_append, ← List.append_assoc]
            exact ⟨_, _, .exponent (c :: w) ex r2 hi hex hr2⟩
          · right
            exact ⟨tk, l', (scanTok_number hd).trans (hsc.trans ((numberFrac_none hnd).trans e2)), hk⟩
        · refine .inl ⟨_, _, .int (c :: w) _ hi ?_⟩
          intro d t h; cases h
          have h1 := hr _ _ rfl
          simp only [not_or] at hy
          simp [h1, hx, hy.1, hy.2]
    · right
      exact ⟨tk, l', (scanTok_number hd).trans e, hk⟩
  by_cases hq : c = '"'
  · subst hq
    have a1 := ha.adv1
    by_cases hb : ∃ s, t = '"' :: '"' :: s
    · obtain ⟨s, rfl⟩ := hb
      have a3 : At ((lS.advs ['"']).advs ['"', '"']) s := At.advs (a := ['"', '"']) a1
      rcases scanBlock_sound a3 hz.tail.tail.tail with ⟨raw, rest, h⟩ | ⟨tk, l', e, hk⟩
      · exact .inl ⟨_, _, .block (s := s) ⟨raw, h, rfl⟩⟩
      · right
        exact ⟨tk, l', scanTok_quote.trans ((scanQuote_block a1).trans e), hk⟩
    · have hnb : ∀ s, t ≠ '"' :: '"' :: s := fun s h => hb ⟨s, h⟩
      obtain ⟨lp, e1, -⟩ := scanQuote_string a1 hnb
      rcases scanString_sound (l := { lS.advs ['"'] with lpos := lp }) ⟨a1.le, a1.eq⟩ hz.tail with
        ⟨v, rest, h⟩ | ⟨tk, l', e, hk⟩
      · left
        refine ⟨_, _, .string h ?_⟩
        rintro rfl d s hd
        subst hd
        cases h with
        | close =>
          cases hh : (d == '"') with
          | false => exact hh
          | true => simp only [beq_iff_eq] at hh; subst hh; exact absurd rfl (hnb s)
      · right
        exact ⟨tk, l', scanTok_quote.trans (e1.trans e), hk⟩
  · right
    unfold scanTok
    have h1 : isNameStart c.toNat = false := by rw [isNameStart_char]; simpa using hns
    have h2 : isPunct c.toNat = false := by rw [isPunct_char]; simp [hp, hdot]
    have h3 : ¬ (isDigit c.toNat = true ∨ c.toNat = 45) := by
      rw [isDigit_char]
      rintro (h | h)
      · exact hd (.inl h)
      · exact hd (.inr (toNat_inj (d := '-') h))
    rw [h1, if_neg (by simp), h2, if_neg (by simp), if_neg h3,
      if_neg (show ¬ c.toNat = 34 from fun h => hq (toNat_inj (d := '"') h)), if_neg hz.head]
    exact ⟨_, _, rfl, rfl⟩

end GQL
